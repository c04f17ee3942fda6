import Verif.Lemmas.CompDeriv

/-! # Partial derivatives of the components of `aviary/subsystems/mass/gasp_based/fuel_capacity.py`

One node of a vector component is modelled over the real numbers.  Each option that selects a
branch is fixed, one namespace per choice.  `out_x` is the output `x`, `J_x__y` the entry that
`compute_partials` (or `declare_partials` with `val`) assigns, `d_x__y` the proof that the entry is
the derivative.  Inputs an output does not take as argument have no influence on it.

* `TrappedFuelCapacity_smooth`: line 35: raise branch excluded

* `TrappedFuelCapacity_no_smooth`: line 35: raise branch excluded -/

set_option linter.all false

namespace Verif.Comp.MassGaspBasedFuelCapacity.TrappedFuelCapacity_smooth
open Real

/-- aviary/subsystems/mass/gasp_based/fuel_capacity.py:40 -/
noncomputable def trapped_fuel_1_wt (wing_area fuel_wing_fuel_fraction fuel_unusable_fuel_mass_coefficient : ℝ) : ℝ :=
  ((fuel_unusable_fuel_mass_coefficient * (wing_area ^ ((1 / 2) : ℝ))) *
    fuel_wing_fuel_fraction) / (43 / 100)

/-- aviary/subsystems/mass/gasp_based/fuel_capacity.py:41 -/
noncomputable def trapped_fuel_2_wt (wing_area fuel_unusable_fuel_mass_coefficient : ℝ) : ℝ :=
  (fuel_unusable_fuel_mass_coefficient * (9 / 50)) * (wing_area ^ ((1 / 2) : ℝ))

/-- aviary/subsystems/mass/gasp_based/fuel_capacity.py:44 -/
noncomputable def smoother (mu x0 fuel_wing_fuel_fraction : ℝ) : ℝ :=
  sigX fuel_wing_fuel_fraction x0 mu

/-- aviary/subsystems/mass/gasp_based/fuel_capacity.py:45 -/
noncomputable def trapped_fuel_wt (mu x0 wing_area fuel_wing_fuel_fraction fuel_unusable_fuel_mass_coefficient : ℝ) : ℝ :=
  ((smoother mu x0 fuel_wing_fuel_fraction) * (trapped_fuel_1_wt wing_area
    fuel_wing_fuel_fraction fuel_unusable_fuel_mass_coefficient)) + ((1 - (smoother mu x0
    fuel_wing_fuel_fraction)) * (trapped_fuel_2_wt wing_area
    fuel_unusable_fuel_mass_coefficient))

/-- aviary/subsystems/mass/gasp_based/fuel_capacity.py:64 -/
noncomputable def dsmoother_dfuel_vol_frac (mu x0 fuel_wing_fuel_fraction : ℝ) : ℝ :=
  dsigX fuel_wing_fuel_fraction x0 mu

/-- aviary/subsystems/mass/gasp_based/fuel_capacity.py:67 -/
noncomputable def dtrapped_fuel_wt_dmass_coeff_1 (wing_area fuel_wing_fuel_fraction : ℝ) : ℝ :=
  ((wing_area ^ ((1 / 2) : ℝ)) * fuel_wing_fuel_fraction) / (43 / 100)

/-- aviary/subsystems/mass/gasp_based/fuel_capacity.py:68 -/
noncomputable def dtrapped_fuel_wt_dwing_area_1 (wing_area fuel_wing_fuel_fraction fuel_unusable_fuel_mass_coefficient : ℝ) : ℝ :=
  ((((1 / 2) * fuel_unusable_fuel_mass_coefficient) * (wing_area ^ ((-(1 / 2)) : ℝ))) *
    fuel_wing_fuel_fraction) / (43 / 100)

/-- aviary/subsystems/mass/gasp_based/fuel_capacity.py:71 -/
noncomputable def dtrapped_fuel_wt_dfuel_vol_frac_1 (wing_area fuel_unusable_fuel_mass_coefficient : ℝ) : ℝ :=
  (fuel_unusable_fuel_mass_coefficient * (wing_area ^ ((1 / 2) : ℝ))) / (43 / 100)

/-- aviary/subsystems/mass/gasp_based/fuel_capacity.py:72 -/
noncomputable def dtrapped_fuel_wt_dmass_coeff_2 (wing_area : ℝ) : ℝ :=
  (9 / 50) * (wing_area ^ ((1 / 2) : ℝ))

/-- aviary/subsystems/mass/gasp_based/fuel_capacity.py:73 -/
noncomputable def dtrapped_fuel_wt_dwing_area_2 (wing_area fuel_unusable_fuel_mass_coefficient : ℝ) : ℝ :=
  (((1 / 2) * fuel_unusable_fuel_mass_coefficient) * (9 / 50)) * (wing_area ^ ((-(1 / 2)) : ℝ))

/-- aviary/subsystems/mass/gasp_based/fuel_capacity.py:75 -/
noncomputable def dtrapped_fuel_wt_dmass_coeff (mu x0 wing_area fuel_wing_fuel_fraction : ℝ) : ℝ :=
  ((smoother mu x0 fuel_wing_fuel_fraction) * (dtrapped_fuel_wt_dmass_coeff_1 wing_area
    fuel_wing_fuel_fraction)) + ((1 - (smoother mu x0 fuel_wing_fuel_fraction)) *
    (dtrapped_fuel_wt_dmass_coeff_2 wing_area))

/-- aviary/subsystems/mass/gasp_based/fuel_capacity.py:79 -/
noncomputable def dtrapped_fuel_wt_dwing_area (mu x0 wing_area fuel_wing_fuel_fraction fuel_unusable_fuel_mass_coefficient : ℝ) : ℝ :=
  ((smoother mu x0 fuel_wing_fuel_fraction) * (dtrapped_fuel_wt_dwing_area_1 wing_area
    fuel_wing_fuel_fraction fuel_unusable_fuel_mass_coefficient)) + ((1 - (smoother mu x0
    fuel_wing_fuel_fraction)) * (dtrapped_fuel_wt_dwing_area_2 wing_area
    fuel_unusable_fuel_mass_coefficient))

/-- aviary/subsystems/mass/gasp_based/fuel_capacity.py:83 -/
noncomputable def dtrapped_fuel_wt_dfuel_vol_frac (mu x0 wing_area fuel_wing_fuel_fraction fuel_unusable_fuel_mass_coefficient : ℝ) : ℝ :=
  ((((dsmoother_dfuel_vol_frac mu x0 fuel_wing_fuel_fraction) * (trapped_fuel_1_wt wing_area
    fuel_wing_fuel_fraction fuel_unusable_fuel_mass_coefficient)) + ((smoother mu x0
    fuel_wing_fuel_fraction) * (dtrapped_fuel_wt_dfuel_vol_frac_1 wing_area
    fuel_unusable_fuel_mass_coefficient))) - ((dsmoother_dfuel_vol_frac mu x0
    fuel_wing_fuel_fraction) * (trapped_fuel_2_wt wing_area
    fuel_unusable_fuel_mass_coefficient))) + ((1 - (smoother mu x0 fuel_wing_fuel_fraction)) *
    0)

/-- Output `fuel_unusable_fuel_mass` of `TrappedFuelCapacity.compute`, aviary/subsystems/mass/gasp_based/fuel_capacity.py:52 -/
noncomputable def out_fuel_unusable_fuel_mass (mu x0 wing_area fuel_wing_fuel_fraction fuel_unusable_fuel_mass_coefficient : ℝ) : ℝ :=
  trapped_fuel_wt mu x0 wing_area fuel_wing_fuel_fraction fuel_unusable_fuel_mass_coefficient

/-- Partial of `fuel_unusable_fuel_mass` with respect to `wing_area` as set by `TrappedFuelCapacity`, aviary/subsystems/mass/gasp_based/fuel_capacity.py:101 -/
noncomputable def J_fuel_unusable_fuel_mass__wing_area (mu x0 wing_area fuel_wing_fuel_fraction fuel_unusable_fuel_mass_coefficient : ℝ) : ℝ :=
  dtrapped_fuel_wt_dwing_area mu x0 wing_area fuel_wing_fuel_fraction
    fuel_unusable_fuel_mass_coefficient

/-- Partial of `fuel_unusable_fuel_mass` with respect to `fuel_wing_fuel_fraction` as set by `TrappedFuelCapacity`, aviary/subsystems/mass/gasp_based/fuel_capacity.py:104 -/
noncomputable def J_fuel_unusable_fuel_mass__fuel_wing_fuel_fraction (mu x0 wing_area fuel_wing_fuel_fraction fuel_unusable_fuel_mass_coefficient : ℝ) : ℝ :=
  dtrapped_fuel_wt_dfuel_vol_frac mu x0 wing_area fuel_wing_fuel_fraction
    fuel_unusable_fuel_mass_coefficient

/-- Partial of `fuel_unusable_fuel_mass` with respect to `fuel_unusable_fuel_mass_coefficient` as set by `TrappedFuelCapacity`, aviary/subsystems/mass/gasp_based/fuel_capacity.py:107 -/
noncomputable def J_fuel_unusable_fuel_mass__fuel_unusable_fuel_mass_coefficient (mu x0 wing_area fuel_wing_fuel_fraction : ℝ) : ℝ :=
  dtrapped_fuel_wt_dmass_coeff mu x0 wing_area fuel_wing_fuel_fraction

theorem d_fuel_unusable_fuel_mass__wing_area (mu x0 wing_area fuel_wing_fuel_fraction
    fuel_unusable_fuel_mass_coefficient : ℝ) (h0 : 0 < mu) (h1 : 0 < wing_area) :
    HasDerivAt (fun t => out_fuel_unusable_fuel_mass mu x0 t fuel_wing_fuel_fraction fuel_unusable_fuel_mass_coefficient) (J_fuel_unusable_fuel_mass__wing_area mu x0 wing_area fuel_wing_fuel_fraction fuel_unusable_fuel_mass_coefficient) wing_area := by
  have e0 : ∀ x : ℝ, 0 < x → x ^ ((-(1 / 2)) : ℝ) = x ^ ((1 / 2) : ℝ) / x ^ 1 := fun x hx => rpow_down hx 1 (by norm_num)
  simp only [out_fuel_unusable_fuel_mass, J_fuel_unusable_fuel_mass__wing_area, dtrapped_fuel_wt_dwing_area, dtrapped_fuel_wt_dwing_area_2, dtrapped_fuel_wt_dwing_area_1, trapped_fuel_wt, trapped_fuel_2_wt, trapped_fuel_1_wt, smoother]
  (apply hasDerivAt_of_eq; on_goal 1 => (repeat' comp_step))
  all_goals try comp_side
  all_goals try simp (disch := first | assumption | positivity) only [e0, div_mul_eq_div_div, div_half, inv_half]
  all_goals try simp only [mul_zero, zero_mul, add_zero, zero_add, sub_zero, zero_sub, mul_one, one_mul]
  all_goals try push_cast
  all_goals comp_eq

theorem d_fuel_unusable_fuel_mass__fuel_wing_fuel_fraction (mu x0 wing_area
    fuel_wing_fuel_fraction fuel_unusable_fuel_mass_coefficient : ℝ) (h0 : 0 < mu) (h1 :
    (fuel_wing_fuel_fraction - x0) / mu ≠ -320) (h2 : 0 < wing_area) :
    HasDerivAt (fun t => out_fuel_unusable_fuel_mass mu x0 wing_area t fuel_unusable_fuel_mass_coefficient) (J_fuel_unusable_fuel_mass__fuel_wing_fuel_fraction mu x0 wing_area fuel_wing_fuel_fraction fuel_unusable_fuel_mass_coefficient) fuel_wing_fuel_fraction := by
  simp only [out_fuel_unusable_fuel_mass, J_fuel_unusable_fuel_mass__fuel_wing_fuel_fraction, dtrapped_fuel_wt_dfuel_vol_frac, dtrapped_fuel_wt_dfuel_vol_frac_1, dsmoother_dfuel_vol_frac, trapped_fuel_wt, trapped_fuel_2_wt, trapped_fuel_1_wt, smoother]
  (apply hasDerivAt_of_eq; on_goal 1 => (repeat' comp_step))
  all_goals try comp_side
  all_goals try simp (disch := first | assumption | positivity) only [div_mul_eq_div_div, div_half, inv_half]
  all_goals try simp only [mul_zero, zero_mul, add_zero, zero_add, sub_zero, zero_sub, mul_one, one_mul]
  all_goals try push_cast
  all_goals comp_eq

theorem d_fuel_unusable_fuel_mass__fuel_unusable_fuel_mass_coefficient (mu x0 wing_area
    fuel_wing_fuel_fraction fuel_unusable_fuel_mass_coefficient : ℝ) (h0 : 0 < mu) (h1 : 0 <
    wing_area) :
    HasDerivAt (fun t => out_fuel_unusable_fuel_mass mu x0 wing_area fuel_wing_fuel_fraction t) (J_fuel_unusable_fuel_mass__fuel_unusable_fuel_mass_coefficient mu x0 wing_area fuel_wing_fuel_fraction) fuel_unusable_fuel_mass_coefficient := by
  simp only [out_fuel_unusable_fuel_mass, J_fuel_unusable_fuel_mass__fuel_unusable_fuel_mass_coefficient, dtrapped_fuel_wt_dmass_coeff, dtrapped_fuel_wt_dmass_coeff_2, dtrapped_fuel_wt_dmass_coeff_1, trapped_fuel_wt, trapped_fuel_2_wt, trapped_fuel_1_wt, smoother]
  (apply hasDerivAt_of_eq; on_goal 1 => (repeat' comp_step))
  all_goals try comp_side
  all_goals try simp (disch := first | assumption | positivity) only [div_mul_eq_div_div, div_half, inv_half]
  all_goals try simp only [mul_zero, zero_mul, add_zero, zero_add, sub_zero, zero_sub, mul_one, one_mul]
  all_goals try push_cast
  all_goals comp_eq

/-- Every partial derivative set by `TrappedFuelCapacity` is the derivative of its output. -/
theorem partials (mu x0 wing_area fuel_wing_fuel_fraction fuel_unusable_fuel_mass_coefficient : ℝ)
    (h0 : 0 < mu) (h1 : 0 < wing_area) (h2 : (fuel_wing_fuel_fraction - x0) / mu ≠ -320) :
    HasDerivAt (fun t => out_fuel_unusable_fuel_mass mu x0 t fuel_wing_fuel_fraction
      fuel_unusable_fuel_mass_coefficient) (J_fuel_unusable_fuel_mass__wing_area mu x0 wing_area
      fuel_wing_fuel_fraction fuel_unusable_fuel_mass_coefficient) wing_area ∧
    HasDerivAt (fun t => out_fuel_unusable_fuel_mass mu x0 wing_area t
      fuel_unusable_fuel_mass_coefficient) (J_fuel_unusable_fuel_mass__fuel_wing_fuel_fraction mu
      x0 wing_area fuel_wing_fuel_fraction fuel_unusable_fuel_mass_coefficient)
      fuel_wing_fuel_fraction ∧
    HasDerivAt (fun t => out_fuel_unusable_fuel_mass mu x0 wing_area fuel_wing_fuel_fraction t)
      (J_fuel_unusable_fuel_mass__fuel_unusable_fuel_mass_coefficient mu x0 wing_area
      fuel_wing_fuel_fraction) fuel_unusable_fuel_mass_coefficient :=
  ⟨d_fuel_unusable_fuel_mass__wing_area _ _ _ _ _ h0 h1,
    d_fuel_unusable_fuel_mass__fuel_wing_fuel_fraction _ _ _ _ _ h0 h2 h1,
    d_fuel_unusable_fuel_mass__fuel_unusable_fuel_mass_coefficient _ _ _ _ _ h0 h1⟩

example : ∃ mu x0 wing_area fuel_wing_fuel_fraction fuel_unusable_fuel_mass_coefficient : ℝ,
      0 < mu ∧
      0 < wing_area ∧
      (fuel_wing_fuel_fraction - x0) / mu ≠ -320 :=
  ⟨1, 0, 1, 0, 0, by comp_example, by comp_example, by comp_example⟩

end Verif.Comp.MassGaspBasedFuelCapacity.TrappedFuelCapacity_smooth

namespace Verif.Comp.MassGaspBasedFuelCapacity.TrappedFuelCapacity_no_smooth
open Real

/-- aviary/subsystems/mass/gasp_based/fuel_capacity.py:40 -/
noncomputable abbrev trapped_fuel_1_wt (wing_area fuel_wing_fuel_fraction fuel_unusable_fuel_mass_coefficient : ℝ) : ℝ :=
  ((fuel_unusable_fuel_mass_coefficient * (wing_area ^ ((1 / 2) : ℝ))) *
    fuel_wing_fuel_fraction) / (43 / 100)

/-- aviary/subsystems/mass/gasp_based/fuel_capacity.py:41 -/
noncomputable abbrev trapped_fuel_2_wt (wing_area fuel_unusable_fuel_mass_coefficient : ℝ) : ℝ :=
  (fuel_unusable_fuel_mass_coefficient * (9 / 50)) * (wing_area ^ ((1 / 2) : ℝ))

/-- aviary/subsystems/mass/gasp_based/fuel_capacity.py:47 -/
noncomputable abbrev trapped_fuel_wt (wing_area fuel_wing_fuel_fraction fuel_unusable_fuel_mass_coefficient : ℝ) : ℝ :=
  if (3 / 40) < fuel_wing_fuel_fraction then (trapped_fuel_1_wt wing_area
    fuel_wing_fuel_fraction fuel_unusable_fuel_mass_coefficient) else (trapped_fuel_2_wt
    wing_area fuel_unusable_fuel_mass_coefficient)

/-- aviary/subsystems/mass/gasp_based/fuel_capacity.py:91 -/
noncomputable abbrev dtrapped_fuel_wt_dmass_coeff (wing_area fuel_wing_fuel_fraction : ℝ) : ℝ :=
  ((wing_area ^ ((1 / 2) : ℝ)) * fuel_wing_fuel_fraction) / (43 / 100)

/-- aviary/subsystems/mass/gasp_based/fuel_capacity.py:92 -/
noncomputable abbrev dtrapped_fuel_wt_dwing_area (wing_area fuel_wing_fuel_fraction fuel_unusable_fuel_mass_coefficient : ℝ) : ℝ :=
  ((((1 / 2) * fuel_unusable_fuel_mass_coefficient) * (wing_area ^ ((-(1 / 2)) : ℝ))) *
    fuel_wing_fuel_fraction) / (43 / 100)

/-- aviary/subsystems/mass/gasp_based/fuel_capacity.py:95 -/
noncomputable abbrev dtrapped_fuel_wt_dfuel_vol_frac (wing_area fuel_unusable_fuel_mass_coefficient : ℝ) : ℝ :=
  (fuel_unusable_fuel_mass_coefficient * (wing_area ^ ((1 / 2) : ℝ))) / (43 / 100)

/-- aviary/subsystems/mass/gasp_based/fuel_capacity.py:97 -/
noncomputable abbrev dtrapped_fuel_wt_dmass_coeff_2 (wing_area : ℝ) : ℝ :=
  (9 / 50) * (wing_area ^ ((1 / 2) : ℝ))

/-- aviary/subsystems/mass/gasp_based/fuel_capacity.py:98 -/
noncomputable abbrev dtrapped_fuel_wt_dwing_area_2 (wing_area fuel_unusable_fuel_mass_coefficient : ℝ) : ℝ :=
  (((1 / 2) * fuel_unusable_fuel_mass_coefficient) * (9 / 50)) * (wing_area ^ ((-(1 / 2)) : ℝ))

/-- aviary/subsystems/mass/gasp_based/fuel_capacity.py:90 -/
noncomputable abbrev dtrapped_fuel_wt_dmass_coeff_3 (wing_area fuel_wing_fuel_fraction : ℝ) : ℝ :=
  if (3 / 40) < fuel_wing_fuel_fraction then (dtrapped_fuel_wt_dmass_coeff wing_area
    fuel_wing_fuel_fraction) else (dtrapped_fuel_wt_dmass_coeff_2 wing_area)

/-- aviary/subsystems/mass/gasp_based/fuel_capacity.py:90 -/
noncomputable abbrev dtrapped_fuel_wt_dwing_area_3 (wing_area fuel_wing_fuel_fraction fuel_unusable_fuel_mass_coefficient : ℝ) : ℝ :=
  if (3 / 40) < fuel_wing_fuel_fraction then (dtrapped_fuel_wt_dwing_area wing_area
    fuel_wing_fuel_fraction fuel_unusable_fuel_mass_coefficient) else
    (dtrapped_fuel_wt_dwing_area_2 wing_area fuel_unusable_fuel_mass_coefficient)

/-- aviary/subsystems/mass/gasp_based/fuel_capacity.py:90 -/
noncomputable abbrev dtrapped_fuel_wt_dfuel_vol_frac_2 (wing_area fuel_wing_fuel_fraction fuel_unusable_fuel_mass_coefficient : ℝ) : ℝ :=
  if (3 / 40) < fuel_wing_fuel_fraction then (dtrapped_fuel_wt_dfuel_vol_frac wing_area
    fuel_unusable_fuel_mass_coefficient) else 0

/-- Output `fuel_unusable_fuel_mass` of `TrappedFuelCapacity.compute`, aviary/subsystems/mass/gasp_based/fuel_capacity.py:52 -/
noncomputable def out_fuel_unusable_fuel_mass (wing_area fuel_wing_fuel_fraction fuel_unusable_fuel_mass_coefficient : ℝ) : ℝ :=
  trapped_fuel_wt wing_area fuel_wing_fuel_fraction fuel_unusable_fuel_mass_coefficient

/-- Partial of `fuel_unusable_fuel_mass` with respect to `wing_area` as set by `TrappedFuelCapacity`, aviary/subsystems/mass/gasp_based/fuel_capacity.py:101 -/
noncomputable def J_fuel_unusable_fuel_mass__wing_area (wing_area fuel_wing_fuel_fraction fuel_unusable_fuel_mass_coefficient : ℝ) : ℝ :=
  dtrapped_fuel_wt_dwing_area_3 wing_area fuel_wing_fuel_fraction
    fuel_unusable_fuel_mass_coefficient

/-- Partial of `fuel_unusable_fuel_mass` with respect to `fuel_wing_fuel_fraction` as set by `TrappedFuelCapacity`, aviary/subsystems/mass/gasp_based/fuel_capacity.py:104 -/
noncomputable def J_fuel_unusable_fuel_mass__fuel_wing_fuel_fraction (wing_area fuel_wing_fuel_fraction fuel_unusable_fuel_mass_coefficient : ℝ) : ℝ :=
  dtrapped_fuel_wt_dfuel_vol_frac_2 wing_area fuel_wing_fuel_fraction
    fuel_unusable_fuel_mass_coefficient

/-- Partial of `fuel_unusable_fuel_mass` with respect to `fuel_unusable_fuel_mass_coefficient` as set by `TrappedFuelCapacity`, aviary/subsystems/mass/gasp_based/fuel_capacity.py:107 -/
noncomputable def J_fuel_unusable_fuel_mass__fuel_unusable_fuel_mass_coefficient (wing_area fuel_wing_fuel_fraction : ℝ) : ℝ :=
  dtrapped_fuel_wt_dmass_coeff_3 wing_area fuel_wing_fuel_fraction

theorem d_fuel_unusable_fuel_mass__wing_area (wing_area fuel_wing_fuel_fraction
    fuel_unusable_fuel_mass_coefficient : ℝ) (h0 : 0 < wing_area) :
    HasDerivAt (fun t => out_fuel_unusable_fuel_mass t fuel_wing_fuel_fraction fuel_unusable_fuel_mass_coefficient) (J_fuel_unusable_fuel_mass__wing_area wing_area fuel_wing_fuel_fraction fuel_unusable_fuel_mass_coefficient) wing_area := by
  have e0 : ∀ x : ℝ, 0 < x → x ^ ((-(1 / 2)) : ℝ) = x ^ ((1 / 2) : ℝ) / x ^ 1 := fun x hx => rpow_down hx 1 (by norm_num)
  simp only [out_fuel_unusable_fuel_mass, J_fuel_unusable_fuel_mass__wing_area, dtrapped_fuel_wt_dwing_area_3, dtrapped_fuel_wt_dwing_area_2, dtrapped_fuel_wt_dwing_area, trapped_fuel_wt, trapped_fuel_2_wt, trapped_fuel_1_wt]
  try split_ifs
  all_goals (apply hasDerivAt_of_eq; on_goal 1 => (repeat' comp_step))
  all_goals try comp_side
  all_goals try simp (disch := first | assumption | positivity) only [e0, div_mul_eq_div_div, div_half, inv_half]
  all_goals try split_ifs
  all_goals try (exfalso; linarith)
  all_goals try simp only [mul_zero, zero_mul, add_zero, zero_add, sub_zero, zero_sub, mul_one, one_mul]
  all_goals try push_cast
  all_goals comp_eq

theorem d_fuel_unusable_fuel_mass__fuel_wing_fuel_fraction (wing_area fuel_wing_fuel_fraction
    fuel_unusable_fuel_mass_coefficient : ℝ) (h0 : fuel_wing_fuel_fraction ≠ 3 / 40) (h1 : 0 <
    wing_area) :
    HasDerivAt (fun t => out_fuel_unusable_fuel_mass wing_area t fuel_unusable_fuel_mass_coefficient) (J_fuel_unusable_fuel_mass__fuel_wing_fuel_fraction wing_area fuel_wing_fuel_fraction fuel_unusable_fuel_mass_coefficient) fuel_wing_fuel_fraction := by
  simp only [out_fuel_unusable_fuel_mass, J_fuel_unusable_fuel_mass__fuel_wing_fuel_fraction, dtrapped_fuel_wt_dfuel_vol_frac_2, dtrapped_fuel_wt_dfuel_vol_frac, trapped_fuel_wt, trapped_fuel_2_wt, trapped_fuel_1_wt]
  try split_ifs
  all_goals (apply hasDerivAt_of_eq; on_goal 1 => (repeat' comp_step))
  all_goals try comp_side
  all_goals try simp (disch := first | assumption | positivity) only [div_mul_eq_div_div, div_half, inv_half]
  all_goals try split_ifs
  all_goals try (exfalso; linarith)
  all_goals try simp only [mul_zero, zero_mul, add_zero, zero_add, sub_zero, zero_sub, mul_one, one_mul]
  all_goals try push_cast
  all_goals comp_eq

theorem d_fuel_unusable_fuel_mass__fuel_unusable_fuel_mass_coefficient (wing_area
    fuel_wing_fuel_fraction fuel_unusable_fuel_mass_coefficient : ℝ) (h0 : 0 < wing_area) :
    HasDerivAt (fun t => out_fuel_unusable_fuel_mass wing_area fuel_wing_fuel_fraction t) (J_fuel_unusable_fuel_mass__fuel_unusable_fuel_mass_coefficient wing_area fuel_wing_fuel_fraction) fuel_unusable_fuel_mass_coefficient := by
  simp only [out_fuel_unusable_fuel_mass, J_fuel_unusable_fuel_mass__fuel_unusable_fuel_mass_coefficient, dtrapped_fuel_wt_dmass_coeff_3, dtrapped_fuel_wt_dmass_coeff_2, dtrapped_fuel_wt_dmass_coeff, trapped_fuel_wt, trapped_fuel_2_wt, trapped_fuel_1_wt]
  try split_ifs
  all_goals (apply hasDerivAt_of_eq; on_goal 1 => (repeat' comp_step))
  all_goals try comp_side
  all_goals try simp (disch := first | assumption | positivity) only [div_mul_eq_div_div, div_half, inv_half]
  all_goals try split_ifs
  all_goals try (exfalso; linarith)
  all_goals try simp only [mul_zero, zero_mul, add_zero, zero_add, sub_zero, zero_sub, mul_one, one_mul]
  all_goals try push_cast
  all_goals comp_eq

/-- Every partial derivative set by `TrappedFuelCapacity` is the derivative of its output. -/
theorem partials (wing_area fuel_wing_fuel_fraction fuel_unusable_fuel_mass_coefficient : ℝ) (h0 :
    0 < wing_area) (h1 : fuel_wing_fuel_fraction ≠ 3 / 40) :
    HasDerivAt (fun t => out_fuel_unusable_fuel_mass t fuel_wing_fuel_fraction
      fuel_unusable_fuel_mass_coefficient) (J_fuel_unusable_fuel_mass__wing_area wing_area
      fuel_wing_fuel_fraction fuel_unusable_fuel_mass_coefficient) wing_area ∧
    HasDerivAt (fun t => out_fuel_unusable_fuel_mass wing_area t fuel_unusable_fuel_mass_coefficient)
      (J_fuel_unusable_fuel_mass__fuel_wing_fuel_fraction wing_area fuel_wing_fuel_fraction
      fuel_unusable_fuel_mass_coefficient) fuel_wing_fuel_fraction ∧
    HasDerivAt (fun t => out_fuel_unusable_fuel_mass wing_area fuel_wing_fuel_fraction t)
      (J_fuel_unusable_fuel_mass__fuel_unusable_fuel_mass_coefficient wing_area
      fuel_wing_fuel_fraction) fuel_unusable_fuel_mass_coefficient :=
  ⟨d_fuel_unusable_fuel_mass__wing_area _ _ _ h0,
    d_fuel_unusable_fuel_mass__fuel_wing_fuel_fraction _ _ _ h1 h0,
    d_fuel_unusable_fuel_mass__fuel_unusable_fuel_mass_coefficient _ _ _ h0⟩

example : ∃ wing_area fuel_wing_fuel_fraction fuel_unusable_fuel_mass_coefficient : ℝ,
      0 < wing_area ∧
      fuel_wing_fuel_fraction ≠ 3 / 40 :=
  ⟨1, 0, 0, by comp_example, by comp_example⟩

end Verif.Comp.MassGaspBasedFuelCapacity.TrappedFuelCapacity_no_smooth

