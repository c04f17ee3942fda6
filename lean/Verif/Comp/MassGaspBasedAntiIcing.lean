import Verif.Lemmas.CompDeriv

/-! # Partial derivatives of the components of `aviary/subsystems/mass/gasp_based/anti_icing.py`

One node of a vector component is modelled over the real numbers.  Each option that selects a
branch is fixed, one namespace per choice.  `out_x` is the output `x`, `J_x__y` the entry that
`compute_partials` (or `declare_partials` with `val`) assigns, `d_x__y` the proof that the entry is
the derivative.  Inputs an output does not take as argument have no influence on it. -/

set_option linter.all false

namespace Verif.Comp.MassGaspBasedAntiIcing.AntiIcingMass_smooth
open Real

/-- aviary/subsystems/mass/gasp_based/anti_icing.py:35 -/
noncomputable def ssum (wing_area horizontaltail_area verticaltail_area : ℝ) : ℝ :=
  (wing_area + horizontaltail_area) + verticaltail_area

/-- aviary/subsystems/mass/gasp_based/anti_icing.py:36 -/
noncomputable def icing_wt (wing_area horizontaltail_area verticaltail_area : ℝ) : ℝ :=
  ((227 / 10) * ((ssum wing_area horizontaltail_area verticaltail_area) ^ ((1 / 2) : ℝ))) - 385

/-- aviary/subsystems/mass/gasp_based/anti_icing.py:40 -/
noncomputable def icing_wt_2 (mu wing_area horizontaltail_area verticaltail_area : ℝ) : ℝ :=
  smoothMax (icing_wt wing_area horizontaltail_area verticaltail_area) 0 mu

/-- aviary/subsystems/mass/gasp_based/anti_icing.py:56 -/
noncomputable def dicing_weight_dwing_area (wing_area horizontaltail_area verticaltail_area : ℝ) : ℝ :=
  (227 / 20) * ((ssum wing_area horizontaltail_area verticaltail_area) ^ ((-(1 / 2)) : ℝ))

/-- aviary/subsystems/mass/gasp_based/anti_icing.py:57 -/
noncomputable def dicing_weight_dhtail_area (wing_area horizontaltail_area verticaltail_area : ℝ) : ℝ :=
  (227 / 20) * ((ssum wing_area horizontaltail_area verticaltail_area) ^ ((-(1 / 2)) : ℝ))

/-- aviary/subsystems/mass/gasp_based/anti_icing.py:58 -/
noncomputable def dicing_weight_dvtail_area (wing_area horizontaltail_area verticaltail_area : ℝ) : ℝ :=
  (227 / 20) * ((ssum wing_area horizontaltail_area verticaltail_area) ^ ((-(1 / 2)) : ℝ))

/-- aviary/subsystems/mass/gasp_based/anti_icing.py:62 -/
noncomputable def sm_fac (mu wing_area horizontaltail_area verticaltail_area : ℝ) : ℝ :=
  dSmoothMax (icing_wt wing_area horizontaltail_area verticaltail_area) 0 mu

/-- aviary/subsystems/mass/gasp_based/anti_icing.py:63 -/
noncomputable def dicing_weight_dwing_area_2 (mu wing_area horizontaltail_area verticaltail_area : ℝ) : ℝ :=
  (sm_fac mu wing_area horizontaltail_area verticaltail_area) * (dicing_weight_dwing_area
    wing_area horizontaltail_area verticaltail_area)

/-- aviary/subsystems/mass/gasp_based/anti_icing.py:64 -/
noncomputable def dicing_weight_dhtail_area_2 (mu wing_area horizontaltail_area verticaltail_area : ℝ) : ℝ :=
  (sm_fac mu wing_area horizontaltail_area verticaltail_area) * (dicing_weight_dhtail_area
    wing_area horizontaltail_area verticaltail_area)

/-- aviary/subsystems/mass/gasp_based/anti_icing.py:65 -/
noncomputable def dicing_weight_dvtail_area_2 (mu wing_area horizontaltail_area verticaltail_area : ℝ) : ℝ :=
  (sm_fac mu wing_area horizontaltail_area verticaltail_area) * (dicing_weight_dvtail_area
    wing_area horizontaltail_area verticaltail_area)

/-- Output `antiicing_mass` of `AntiIcingMass.compute`, aviary/subsystems/mass/gasp_based/anti_icing.py:45 -/
noncomputable def out_antiicing_mass (mu wing_area horizontaltail_area verticaltail_area : ℝ) : ℝ :=
  icing_wt_2 mu wing_area horizontaltail_area verticaltail_area

/-- Partial of `antiicing_mass` with respect to `wing_area` as set by `AntiIcingMass`, aviary/subsystems/mass/gasp_based/anti_icing.py:73 -/
noncomputable def J_antiicing_mass__wing_area (mu wing_area horizontaltail_area verticaltail_area : ℝ) : ℝ :=
  dicing_weight_dwing_area_2 mu wing_area horizontaltail_area verticaltail_area

/-- Partial of `antiicing_mass` with respect to `horizontaltail_area` as set by `AntiIcingMass`, aviary/subsystems/mass/gasp_based/anti_icing.py:74 -/
noncomputable def J_antiicing_mass__horizontaltail_area (mu wing_area horizontaltail_area verticaltail_area : ℝ) : ℝ :=
  dicing_weight_dhtail_area_2 mu wing_area horizontaltail_area verticaltail_area

/-- Partial of `antiicing_mass` with respect to `verticaltail_area` as set by `AntiIcingMass`, aviary/subsystems/mass/gasp_based/anti_icing.py:75 -/
noncomputable def J_antiicing_mass__verticaltail_area (mu wing_area horizontaltail_area verticaltail_area : ℝ) : ℝ :=
  dicing_weight_dvtail_area_2 mu wing_area horizontaltail_area verticaltail_area

theorem d_antiicing_mass__wing_area (mu wing_area horizontaltail_area verticaltail_area : ℝ) (h0 :
    0 < wing_area) (h1 : 0 < horizontaltail_area) (h2 : 0 < verticaltail_area) (h3 : 0 < mu) :
    HasDerivAt (fun t => out_antiicing_mass mu t horizontaltail_area verticaltail_area) (J_antiicing_mass__wing_area mu wing_area horizontaltail_area verticaltail_area) wing_area := by
  have e0 : ∀ x : ℝ, 0 < x → x ^ ((-(1 / 2)) : ℝ) = x ^ ((1 / 2) : ℝ) / x ^ 1 := fun x hx => rpow_down hx 1 (by norm_num)
  simp only [out_antiicing_mass, J_antiicing_mass__wing_area, dicing_weight_dwing_area_2, dicing_weight_dwing_area, sm_fac, icing_wt_2, icing_wt, ssum]
  (apply hasDerivAt_of_eq; on_goal 1 => (repeat' comp_step))
  all_goals try comp_side
  all_goals try simp (disch := first | assumption | positivity) only [e0, div_mul_eq_div_div, div_half, inv_half]
  all_goals try simp only [mul_zero, zero_mul, add_zero, zero_add, sub_zero, zero_sub, mul_one, one_mul]
  all_goals try push_cast
  all_goals comp_eq

theorem d_antiicing_mass__horizontaltail_area (mu wing_area horizontaltail_area verticaltail_area
    : ℝ) (h0 : 0 < wing_area) (h1 : 0 < horizontaltail_area) (h2 : 0 < verticaltail_area) (h3 : 0
    < mu) :
    HasDerivAt (fun t => out_antiicing_mass mu wing_area t verticaltail_area) (J_antiicing_mass__horizontaltail_area mu wing_area horizontaltail_area verticaltail_area) horizontaltail_area := by
  have e0 : ∀ x : ℝ, 0 < x → x ^ ((-(1 / 2)) : ℝ) = x ^ ((1 / 2) : ℝ) / x ^ 1 := fun x hx => rpow_down hx 1 (by norm_num)
  simp only [out_antiicing_mass, J_antiicing_mass__horizontaltail_area, dicing_weight_dhtail_area_2, dicing_weight_dhtail_area, sm_fac, icing_wt_2, icing_wt, ssum]
  (apply hasDerivAt_of_eq; on_goal 1 => (repeat' comp_step))
  all_goals try comp_side
  all_goals try simp (disch := first | assumption | positivity) only [e0, div_mul_eq_div_div, div_half, inv_half]
  all_goals try simp only [mul_zero, zero_mul, add_zero, zero_add, sub_zero, zero_sub, mul_one, one_mul]
  all_goals try push_cast
  all_goals comp_eq

theorem d_antiicing_mass__verticaltail_area (mu wing_area horizontaltail_area verticaltail_area :
    ℝ) (h0 : 0 < wing_area) (h1 : 0 < horizontaltail_area) (h2 : 0 < verticaltail_area) (h3 : 0 <
    mu) :
    HasDerivAt (fun t => out_antiicing_mass mu wing_area horizontaltail_area t) (J_antiicing_mass__verticaltail_area mu wing_area horizontaltail_area verticaltail_area) verticaltail_area := by
  have e0 : ∀ x : ℝ, 0 < x → x ^ ((-(1 / 2)) : ℝ) = x ^ ((1 / 2) : ℝ) / x ^ 1 := fun x hx => rpow_down hx 1 (by norm_num)
  simp only [out_antiicing_mass, J_antiicing_mass__verticaltail_area, dicing_weight_dvtail_area_2, dicing_weight_dvtail_area, sm_fac, icing_wt_2, icing_wt, ssum]
  (apply hasDerivAt_of_eq; on_goal 1 => (repeat' comp_step))
  all_goals try comp_side
  all_goals try simp (disch := first | assumption | positivity) only [e0, div_mul_eq_div_div, div_half, inv_half]
  all_goals try simp only [mul_zero, zero_mul, add_zero, zero_add, sub_zero, zero_sub, mul_one, one_mul]
  all_goals try push_cast
  all_goals comp_eq

/-- Every partial derivative set by `AntiIcingMass` is the derivative of its output. -/
theorem partials (mu wing_area horizontaltail_area verticaltail_area : ℝ) (h0 : 0 < wing_area) (h1
    : 0 < horizontaltail_area) (h2 : 0 < verticaltail_area) (h3 : 0 < mu) :
    HasDerivAt (fun t => out_antiicing_mass mu t horizontaltail_area verticaltail_area)
      (J_antiicing_mass__wing_area mu wing_area horizontaltail_area verticaltail_area) wing_area ∧
    HasDerivAt (fun t => out_antiicing_mass mu wing_area t verticaltail_area)
      (J_antiicing_mass__horizontaltail_area mu wing_area horizontaltail_area verticaltail_area)
      horizontaltail_area ∧
    HasDerivAt (fun t => out_antiicing_mass mu wing_area horizontaltail_area t)
      (J_antiicing_mass__verticaltail_area mu wing_area horizontaltail_area verticaltail_area)
      verticaltail_area :=
  ⟨d_antiicing_mass__wing_area _ _ _ _ h0 h1 h2 h3, d_antiicing_mass__horizontaltail_area _ _ _ _
    h0 h1 h2 h3, d_antiicing_mass__verticaltail_area _ _ _ _ h0 h1 h2 h3⟩

example : ∃ mu wing_area horizontaltail_area verticaltail_area : ℝ,
      0 < wing_area ∧
      0 < horizontaltail_area ∧
      0 < verticaltail_area ∧
      0 < mu :=
  ⟨1, 1, 1, 1, by comp_example, by comp_example, by comp_example, by comp_example⟩

end Verif.Comp.MassGaspBasedAntiIcing.AntiIcingMass_smooth

namespace Verif.Comp.MassGaspBasedAntiIcing.AntiIcingMass_no_smooth
open Real

/-- aviary/subsystems/mass/gasp_based/anti_icing.py:35 -/
noncomputable abbrev ssum (wing_area horizontaltail_area verticaltail_area : ℝ) : ℝ :=
  (wing_area + horizontaltail_area) + verticaltail_area

/-- aviary/subsystems/mass/gasp_based/anti_icing.py:36 -/
noncomputable abbrev icing_wt (wing_area horizontaltail_area verticaltail_area : ℝ) : ℝ :=
  ((227 / 10) * ((ssum wing_area horizontaltail_area verticaltail_area) ^ ((1 / 2) : ℝ))) - 385

/-- aviary/subsystems/mass/gasp_based/anti_icing.py:42 -/
noncomputable abbrev icing_wt_2 (wing_area horizontaltail_area verticaltail_area : ℝ) : ℝ :=
  if (icing_wt wing_area horizontaltail_area verticaltail_area) < 0 then 0 else (icing_wt
    wing_area horizontaltail_area verticaltail_area)

/-- aviary/subsystems/mass/gasp_based/anti_icing.py:56 -/
noncomputable abbrev dicing_weight_dwing_area (wing_area horizontaltail_area verticaltail_area : ℝ) : ℝ :=
  (227 / 20) * ((ssum wing_area horizontaltail_area verticaltail_area) ^ ((-(1 / 2)) : ℝ))

/-- aviary/subsystems/mass/gasp_based/anti_icing.py:57 -/
noncomputable abbrev dicing_weight_dhtail_area (wing_area horizontaltail_area verticaltail_area : ℝ) : ℝ :=
  (227 / 20) * ((ssum wing_area horizontaltail_area verticaltail_area) ^ ((-(1 / 2)) : ℝ))

/-- aviary/subsystems/mass/gasp_based/anti_icing.py:58 -/
noncomputable abbrev dicing_weight_dvtail_area (wing_area horizontaltail_area verticaltail_area : ℝ) : ℝ :=
  (227 / 20) * ((ssum wing_area horizontaltail_area verticaltail_area) ^ ((-(1 / 2)) : ℝ))

/-- aviary/subsystems/mass/gasp_based/anti_icing.py:67 -/
noncomputable abbrev dicing_weight_dwing_area_2 (wing_area horizontaltail_area verticaltail_area : ℝ) : ℝ :=
  if (icing_wt wing_area horizontaltail_area verticaltail_area) < 0 then 0 else
    (dicing_weight_dwing_area wing_area horizontaltail_area verticaltail_area)

/-- aviary/subsystems/mass/gasp_based/anti_icing.py:67 -/
noncomputable abbrev dicing_weight_dhtail_area_2 (wing_area horizontaltail_area verticaltail_area : ℝ) : ℝ :=
  if (icing_wt wing_area horizontaltail_area verticaltail_area) < 0 then 0 else
    (dicing_weight_dhtail_area wing_area horizontaltail_area verticaltail_area)

/-- aviary/subsystems/mass/gasp_based/anti_icing.py:67 -/
noncomputable abbrev dicing_weight_dvtail_area_2 (wing_area horizontaltail_area verticaltail_area : ℝ) : ℝ :=
  if (icing_wt wing_area horizontaltail_area verticaltail_area) < 0 then 0 else
    (dicing_weight_dvtail_area wing_area horizontaltail_area verticaltail_area)

/-- Output `antiicing_mass` of `AntiIcingMass.compute`, aviary/subsystems/mass/gasp_based/anti_icing.py:45 -/
noncomputable def out_antiicing_mass (wing_area horizontaltail_area verticaltail_area : ℝ) : ℝ :=
  icing_wt_2 wing_area horizontaltail_area verticaltail_area

/-- Partial of `antiicing_mass` with respect to `wing_area` as set by `AntiIcingMass`, aviary/subsystems/mass/gasp_based/anti_icing.py:73 -/
noncomputable def J_antiicing_mass__wing_area (wing_area horizontaltail_area verticaltail_area : ℝ) : ℝ :=
  dicing_weight_dwing_area_2 wing_area horizontaltail_area verticaltail_area

/-- Partial of `antiicing_mass` with respect to `horizontaltail_area` as set by `AntiIcingMass`, aviary/subsystems/mass/gasp_based/anti_icing.py:74 -/
noncomputable def J_antiicing_mass__horizontaltail_area (wing_area horizontaltail_area verticaltail_area : ℝ) : ℝ :=
  dicing_weight_dhtail_area_2 wing_area horizontaltail_area verticaltail_area

/-- Partial of `antiicing_mass` with respect to `verticaltail_area` as set by `AntiIcingMass`, aviary/subsystems/mass/gasp_based/anti_icing.py:75 -/
noncomputable def J_antiicing_mass__verticaltail_area (wing_area horizontaltail_area verticaltail_area : ℝ) : ℝ :=
  dicing_weight_dvtail_area_2 wing_area horizontaltail_area verticaltail_area

theorem d_antiicing_mass__wing_area (wing_area horizontaltail_area verticaltail_area : ℝ) (h0 : 0
    < wing_area) (h1 : 0 < horizontaltail_area) (h2 : 0 < verticaltail_area) (h3 : ((227 / 10) *
    (((wing_area + horizontaltail_area) + verticaltail_area) ^ ((1 / 2) : ℝ))) - 385 ≠ 0) :
    HasDerivAt (fun t => out_antiicing_mass t horizontaltail_area verticaltail_area) (J_antiicing_mass__wing_area wing_area horizontaltail_area verticaltail_area) wing_area := by
  have e0 : ∀ x : ℝ, 0 < x → x ^ ((-(1 / 2)) : ℝ) = x ^ ((1 / 2) : ℝ) / x ^ 1 := fun x hx => rpow_down hx 1 (by norm_num)
  simp only [out_antiicing_mass, J_antiicing_mass__wing_area, dicing_weight_dwing_area_2, dicing_weight_dwing_area, icing_wt_2, icing_wt, ssum]
  try split_ifs
  all_goals (apply hasDerivAt_of_eq; on_goal 1 => (repeat' comp_step))
  all_goals try comp_side
  all_goals try simp (disch := first | assumption | positivity) only [e0, div_mul_eq_div_div, div_half, inv_half]
  all_goals try split_ifs
  all_goals try (exfalso; linarith)
  all_goals try simp only [mul_zero, zero_mul, add_zero, zero_add, sub_zero, zero_sub, mul_one, one_mul]
  all_goals try push_cast
  all_goals comp_eq

theorem d_antiicing_mass__horizontaltail_area (wing_area horizontaltail_area verticaltail_area :
    ℝ) (h0 : 0 < wing_area) (h1 : 0 < horizontaltail_area) (h2 : 0 < verticaltail_area) (h3 :
    ((227 / 10) * (((wing_area + horizontaltail_area) + verticaltail_area) ^ ((1 / 2) : ℝ))) - 385
    ≠ 0) :
    HasDerivAt (fun t => out_antiicing_mass wing_area t verticaltail_area) (J_antiicing_mass__horizontaltail_area wing_area horizontaltail_area verticaltail_area) horizontaltail_area := by
  have e0 : ∀ x : ℝ, 0 < x → x ^ ((-(1 / 2)) : ℝ) = x ^ ((1 / 2) : ℝ) / x ^ 1 := fun x hx => rpow_down hx 1 (by norm_num)
  simp only [out_antiicing_mass, J_antiicing_mass__horizontaltail_area, dicing_weight_dhtail_area_2, dicing_weight_dhtail_area, icing_wt_2, icing_wt, ssum]
  try split_ifs
  all_goals (apply hasDerivAt_of_eq; on_goal 1 => (repeat' comp_step))
  all_goals try comp_side
  all_goals try simp (disch := first | assumption | positivity) only [e0, div_mul_eq_div_div, div_half, inv_half]
  all_goals try split_ifs
  all_goals try (exfalso; linarith)
  all_goals try simp only [mul_zero, zero_mul, add_zero, zero_add, sub_zero, zero_sub, mul_one, one_mul]
  all_goals try push_cast
  all_goals comp_eq

theorem d_antiicing_mass__verticaltail_area (wing_area horizontaltail_area verticaltail_area : ℝ)
    (h0 : 0 < wing_area) (h1 : 0 < horizontaltail_area) (h2 : 0 < verticaltail_area) (h3 : ((227 /
    10) * (((wing_area + horizontaltail_area) + verticaltail_area) ^ ((1 / 2) : ℝ))) - 385 ≠ 0) :
    HasDerivAt (fun t => out_antiicing_mass wing_area horizontaltail_area t) (J_antiicing_mass__verticaltail_area wing_area horizontaltail_area verticaltail_area) verticaltail_area := by
  have e0 : ∀ x : ℝ, 0 < x → x ^ ((-(1 / 2)) : ℝ) = x ^ ((1 / 2) : ℝ) / x ^ 1 := fun x hx => rpow_down hx 1 (by norm_num)
  simp only [out_antiicing_mass, J_antiicing_mass__verticaltail_area, dicing_weight_dvtail_area_2, dicing_weight_dvtail_area, icing_wt_2, icing_wt, ssum]
  try split_ifs
  all_goals (apply hasDerivAt_of_eq; on_goal 1 => (repeat' comp_step))
  all_goals try comp_side
  all_goals try simp (disch := first | assumption | positivity) only [e0, div_mul_eq_div_div, div_half, inv_half]
  all_goals try split_ifs
  all_goals try (exfalso; linarith)
  all_goals try simp only [mul_zero, zero_mul, add_zero, zero_add, sub_zero, zero_sub, mul_one, one_mul]
  all_goals try push_cast
  all_goals comp_eq

/-- Every partial derivative set by `AntiIcingMass` is the derivative of its output. -/
theorem partials (wing_area horizontaltail_area verticaltail_area : ℝ) (h0 : 0 < wing_area) (h1 :
    0 < horizontaltail_area) (h2 : 0 < verticaltail_area) (h3 : ((227 / 10) * (((wing_area +
    horizontaltail_area) + verticaltail_area) ^ ((1 / 2) : ℝ))) - 385 ≠ 0) :
    HasDerivAt (fun t => out_antiicing_mass t horizontaltail_area verticaltail_area)
      (J_antiicing_mass__wing_area wing_area horizontaltail_area verticaltail_area) wing_area ∧
    HasDerivAt (fun t => out_antiicing_mass wing_area t verticaltail_area)
      (J_antiicing_mass__horizontaltail_area wing_area horizontaltail_area verticaltail_area)
      horizontaltail_area ∧
    HasDerivAt (fun t => out_antiicing_mass wing_area horizontaltail_area t)
      (J_antiicing_mass__verticaltail_area wing_area horizontaltail_area verticaltail_area)
      verticaltail_area :=
  ⟨d_antiicing_mass__wing_area _ _ _ h0 h1 h2 h3, d_antiicing_mass__horizontaltail_area _ _ _ h0
    h1 h2 h3, d_antiicing_mass__verticaltail_area _ _ _ h0 h1 h2 h3⟩

example : ∃ wing_area horizontaltail_area verticaltail_area : ℝ,
      0 < wing_area ∧
      0 < horizontaltail_area ∧
      0 < verticaltail_area ∧
      ((227 / 10) * (((wing_area + horizontaltail_area) + verticaltail_area) ^ ((1 / 2) : ℝ))) - 385 ≠ 0 :=
  ⟨1, 2, 1, by comp_example, by comp_example, by comp_example, by comp_example⟩

end Verif.Comp.MassGaspBasedAntiIcing.AntiIcingMass_no_smooth

