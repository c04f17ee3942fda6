import Verif.Lemmas.CompDeriv

/-! # Partial derivatives of the components of `aviary/subsystems/aerodynamics/gasp_based/gaspaero.py`

One node of a vector component is modelled over the real numbers.  Each option that selects a
branch is fixed, one namespace per choice.  `out_x` is the output `x`, `J_x__y` the entry that
`compute_partials` (or `declare_partials` with `val`) assigns, `d_x__y` the proof that the entry is
the derivative.  Inputs an output does not take as argument have no influence on it.

* `UFac_transport`: entries that differ from the derivative: `ufac` by `lift_ratio` -/

set_option linter.all false

namespace Verif.Comp.AerodynamicsGaspBasedGaspaero.SIWB
open Real

/-- aviary/subsystems/aerodynamics/gasp_based/gaspaero.py:449 -/
noncomputable def wfob (fuselage_avg_diameter wing_span : ℝ) : ℝ :=
  fuselage_avg_diameter / wing_span

/-- aviary/subsystems/aerodynamics/gasp_based/gaspaero.py:450 -/
noncomputable def siwb (fuselage_avg_diameter wing_span : ℝ) : ℝ :=
  (((1 - ((11 / 1250) * (wfob fuselage_avg_diameter wing_span))) - ((4341 / 2500) * ((wfob
    fuselage_avg_diameter wing_span) ^ 2))) - ((2303 / 1000) * ((wfob fuselage_avg_diameter
    wing_span) ^ 3))) + ((30303 / 5000) * ((wfob fuselage_avg_diameter wing_span) ^ 4))

/-- aviary/subsystems/aerodynamics/gasp_based/gaspaero.py:460 -/
noncomputable def dsiwb_dcabin_width (fuselage_avg_diameter wing_span : ℝ) : ℝ :=
  ((((-(11 / 1250)) / wing_span) - (((4341 / 1250) * (wfob fuselage_avg_diameter wing_span)) /
    wing_span)) - (((6909 / 1000) * ((wfob fuselage_avg_diameter wing_span) ^ 2)) / wing_span))
    + (((30303 / 1250) * ((wfob fuselage_avg_diameter wing_span) ^ 3)) / wing_span)

/-- aviary/subsystems/aerodynamics/gasp_based/gaspaero.py:467 -/
noncomputable def dsiwb_dwingspan (fuselage_avg_diameter wing_span : ℝ) : ℝ :=
  (((((11 / 1250) * fuselage_avg_diameter) / (wing_span ^ 2)) + ((((4341 / 1250) * (wfob
    fuselage_avg_diameter wing_span)) * fuselage_avg_diameter) / (wing_span ^ 2))) + ((((6909 /
    1000) * ((wfob fuselage_avg_diameter wing_span) ^ 2)) * fuselage_avg_diameter) / (wing_span
    ^ 2))) - ((((30303 / 1250) * ((wfob fuselage_avg_diameter wing_span) ^ 3)) *
    fuselage_avg_diameter) / (wing_span ^ 2))

/-- Output `siwb` of `SIWB.compute`, aviary/subsystems/aerodynamics/gasp_based/gaspaero.py:451 -/
noncomputable def out_siwb (fuselage_avg_diameter wing_span : ℝ) : ℝ :=
  siwb fuselage_avg_diameter wing_span

/-- Partial of `siwb` with respect to `fuselage_avg_diameter` as set by `SIWB`, aviary/subsystems/aerodynamics/gasp_based/gaspaero.py:474 -/
noncomputable def J_siwb__fuselage_avg_diameter (fuselage_avg_diameter wing_span : ℝ) : ℝ :=
  dsiwb_dcabin_width fuselage_avg_diameter wing_span

/-- Partial of `siwb` with respect to `wing_span` as set by `SIWB`, aviary/subsystems/aerodynamics/gasp_based/gaspaero.py:475 -/
noncomputable def J_siwb__wing_span (fuselage_avg_diameter wing_span : ℝ) : ℝ :=
  dsiwb_dwingspan fuselage_avg_diameter wing_span

theorem d_siwb__fuselage_avg_diameter (fuselage_avg_diameter wing_span : ℝ) (h0 : 0 < wing_span) :
    HasDerivAt (fun t => out_siwb t wing_span) (J_siwb__fuselage_avg_diameter fuselage_avg_diameter wing_span) fuselage_avg_diameter := by
  simp only [out_siwb, J_siwb__fuselage_avg_diameter, dsiwb_dcabin_width, siwb, wfob]
  (apply hasDerivAt_of_eq; on_goal 1 => (repeat' comp_step))
  all_goals try comp_side
  all_goals try simp only [mul_zero, zero_mul, add_zero, zero_add, sub_zero, zero_sub, mul_one, one_mul]
  all_goals try push_cast
  all_goals comp_eq

theorem d_siwb__wing_span (fuselage_avg_diameter wing_span : ℝ) (h0 : 0 < wing_span) :
    HasDerivAt (fun t => out_siwb fuselage_avg_diameter t) (J_siwb__wing_span fuselage_avg_diameter wing_span) wing_span := by
  simp only [out_siwb, J_siwb__wing_span, dsiwb_dwingspan, siwb, wfob]
  (apply hasDerivAt_of_eq; on_goal 1 => (repeat' comp_step))
  all_goals try comp_side
  all_goals try simp only [mul_zero, zero_mul, add_zero, zero_add, sub_zero, zero_sub, mul_one, one_mul]
  all_goals try push_cast
  all_goals comp_eq

/-- Every partial derivative set by `SIWB` is the derivative of its output. -/
theorem partials (fuselage_avg_diameter wing_span : ℝ) (h0 : 0 < wing_span) :
    HasDerivAt (fun t => out_siwb t wing_span) (J_siwb__fuselage_avg_diameter fuselage_avg_diameter
      wing_span) fuselage_avg_diameter ∧
    HasDerivAt (fun t => out_siwb fuselage_avg_diameter t) (J_siwb__wing_span fuselage_avg_diameter
      wing_span) wing_span :=
  ⟨d_siwb__fuselage_avg_diameter _ _ h0, d_siwb__wing_span _ _ h0⟩

example : ∃ fuselage_avg_diameter wing_span : ℝ,
      0 < wing_span :=
  ⟨0, 1, by comp_example⟩

end Verif.Comp.AerodynamicsGaspBasedGaspaero.SIWB

namespace Verif.Comp.AerodynamicsGaspBasedGaspaero.UFac_transport
open Real

/-- aviary/subsystems/aerodynamics/gasp_based/gaspaero.py:593 -/
noncomputable def ufac (lift_ratio bbar_alt sigma_ sigstr : ℝ) : ℝ :=
  ((1 + lift_ratio) ^ 2) / (((sigstr * ((lift_ratio / bbar_alt) ^ 2)) + (((2 * sigma_) *
    lift_ratio) / bbar_alt)) + 1)

/-- aviary/subsystems/aerodynamics/gasp_based/gaspaero.py:620 -/
noncomputable def numer (lift_ratio : ℝ) : ℝ := (1 + lift_ratio) ^ 2

/-- aviary/subsystems/aerodynamics/gasp_based/gaspaero.py:621 -/
noncomputable def denom (lift_ratio bbar_alt sigma_ sigstr : ℝ) : ℝ :=
  ((sigstr * ((lift_ratio / bbar_alt) ^ 2)) + (((2 * sigma_) * lift_ratio) / bbar_alt)) + 1

/-- aviary/subsystems/aerodynamics/gasp_based/gaspaero.py:625 -/
noncomputable def dnumer (lift_ratio bbar_alt : ℝ) : ℝ := (2 * (1 + lift_ratio)) / bbar_alt

/-- aviary/subsystems/aerodynamics/gasp_based/gaspaero.py:626 -/
noncomputable def ddenom (lift_ratio bbar_alt sigma_ sigstr : ℝ) : ℝ :=
  (((2 * sigstr) * (lift_ratio / bbar_alt)) / bbar_alt) + ((2 * sigma_) / bbar_alt)

/-- aviary/subsystems/aerodynamics/gasp_based/gaspaero.py:627 -/
noncomputable def dufac_dlift_ratio (lift_ratio bbar_alt sigma_ sigstr : ℝ) : ℝ :=
  (((dnumer lift_ratio bbar_alt) * (denom lift_ratio bbar_alt sigma_ sigstr)) - ((numer
    lift_ratio) * (ddenom lift_ratio bbar_alt sigma_ sigstr))) / ((denom lift_ratio bbar_alt
    sigma_ sigstr) ^ 2)

/-- aviary/subsystems/aerodynamics/gasp_based/gaspaero.py:629 -/
noncomputable def dufac_dsigstr (lift_ratio bbar_alt sigma_ sigstr : ℝ) : ℝ :=
  ((-(numer lift_ratio)) * ((lift_ratio / bbar_alt) ^ 2)) / ((denom lift_ratio bbar_alt sigma_
    sigstr) ^ 2)

/-- aviary/subsystems/aerodynamics/gasp_based/gaspaero.py:630 -/
noncomputable def dufac_dsigma (lift_ratio bbar_alt sigma_ sigstr : ℝ) : ℝ :=
  ((((-(numer lift_ratio)) * 2) * lift_ratio) / bbar_alt) / ((denom lift_ratio bbar_alt sigma_
    sigstr) ^ 2)

/-- aviary/subsystems/aerodynamics/gasp_based/gaspaero.py:632 -/
noncomputable def ddenom_dbbar (lift_ratio bbar_alt sigma_ sigstr : ℝ) : ℝ :=
  (((((-2) * sigstr) * (lift_ratio / bbar_alt)) * lift_ratio) / (bbar_alt ^ 2)) - (((2 * sigma_)
    * lift_ratio) / (bbar_alt ^ 2))

/-- aviary/subsystems/aerodynamics/gasp_based/gaspaero.py:636 -/
noncomputable def dufac_dbbar (lift_ratio bbar_alt sigma_ sigstr : ℝ) : ℝ :=
  ((-(numer lift_ratio)) * (ddenom_dbbar lift_ratio bbar_alt sigma_ sigstr)) / ((denom
    lift_ratio bbar_alt sigma_ sigstr) ^ 2)

/-- Output `ufac` of `UFac.compute`, aviary/subsystems/aerodynamics/gasp_based/gaspaero.py:611 -/
noncomputable def out_ufac (lift_ratio bbar_alt sigma_ sigstr : ℝ) : ℝ :=
  ufac lift_ratio bbar_alt sigma_ sigstr

/-- Partial of `ufac` with respect to `lift_ratio` as set by `UFac`, aviary/subsystems/aerodynamics/gasp_based/gaspaero.py:657 -/
noncomputable def J_ufac__lift_ratio (lift_ratio bbar_alt sigma_ sigstr : ℝ) : ℝ :=
  dufac_dlift_ratio lift_ratio bbar_alt sigma_ sigstr

/-- Partial of `ufac` with respect to `bbar_alt` as set by `UFac`, aviary/subsystems/aerodynamics/gasp_based/gaspaero.py:658 -/
noncomputable def J_ufac__bbar_alt (lift_ratio bbar_alt sigma_ sigstr : ℝ) : ℝ :=
  dufac_dbbar lift_ratio bbar_alt sigma_ sigstr

/-- Partial of `ufac` with respect to `sigma_` as set by `UFac`, aviary/subsystems/aerodynamics/gasp_based/gaspaero.py:659 -/
noncomputable def J_ufac__sigma_ (lift_ratio bbar_alt sigma_ sigstr : ℝ) : ℝ :=
  dufac_dsigma lift_ratio bbar_alt sigma_ sigstr

/-- Partial of `ufac` with respect to `sigstr` as set by `UFac`, aviary/subsystems/aerodynamics/gasp_based/gaspaero.py:660 -/
noncomputable def J_ufac__sigstr (lift_ratio bbar_alt sigma_ sigstr : ℝ) : ℝ :=
  dufac_dsigstr lift_ratio bbar_alt sigma_ sigstr

theorem d_ufac__bbar_alt (lift_ratio bbar_alt sigma_ sigstr : ℝ) (h0 : 0 < bbar_alt) (h1 : 0 <
    sigstr) (h2 : 0 < lift_ratio) (h3 : 0 < sigma_) :
    HasDerivAt (fun t => out_ufac lift_ratio t sigma_ sigstr) (J_ufac__bbar_alt lift_ratio bbar_alt sigma_ sigstr) bbar_alt := by
  simp only [out_ufac, J_ufac__bbar_alt, dufac_dbbar, denom, ddenom_dbbar, numer, ufac]
  (apply hasDerivAt_of_eq; on_goal 1 => (repeat' comp_step))
  all_goals try comp_side
  all_goals try simp only [mul_zero, zero_mul, add_zero, zero_add, sub_zero, zero_sub, mul_one, one_mul]
  all_goals try push_cast
  all_goals comp_eq

theorem d_ufac__sigma_ (lift_ratio bbar_alt sigma_ sigstr : ℝ) (h0 : 0 < bbar_alt) (h1 : 0 <
    sigstr) (h2 : 0 < lift_ratio) (h3 : 0 < sigma_) :
    HasDerivAt (fun t => out_ufac lift_ratio bbar_alt t sigstr) (J_ufac__sigma_ lift_ratio bbar_alt sigma_ sigstr) sigma_ := by
  simp only [out_ufac, J_ufac__sigma_, dufac_dsigma, denom, numer, ufac]
  (apply hasDerivAt_of_eq; on_goal 1 => (repeat' comp_step))
  all_goals try comp_side
  all_goals try simp only [mul_zero, zero_mul, add_zero, zero_add, sub_zero, zero_sub, mul_one, one_mul]
  all_goals try push_cast
  all_goals comp_eq

theorem d_ufac__sigstr (lift_ratio bbar_alt sigma_ sigstr : ℝ) (h0 : 0 < bbar_alt) (h1 : 0 <
    sigstr) (h2 : 0 < lift_ratio) (h3 : 0 < sigma_) :
    HasDerivAt (fun t => out_ufac lift_ratio bbar_alt sigma_ t) (J_ufac__sigstr lift_ratio bbar_alt sigma_ sigstr) sigstr := by
  simp only [out_ufac, J_ufac__sigstr, dufac_dsigstr, denom, numer, ufac]
  (apply hasDerivAt_of_eq; on_goal 1 => (repeat' comp_step))
  all_goals try comp_side
  all_goals try simp only [mul_zero, zero_mul, add_zero, zero_add, sub_zero, zero_sub, mul_one, one_mul]
  all_goals try push_cast
  all_goals comp_eq

/-- Partial derivatives of `UFac` that are proved correct (the rest is listed in the header). -/
theorem partials_partial (lift_ratio bbar_alt sigma_ sigstr : ℝ) (h0 : 0 < bbar_alt) (h1 : 0 <
    sigstr) (h2 : 0 < lift_ratio) (h3 : 0 < sigma_) :
    HasDerivAt (fun t => out_ufac lift_ratio t sigma_ sigstr) (J_ufac__bbar_alt lift_ratio bbar_alt
      sigma_ sigstr) bbar_alt ∧
    HasDerivAt (fun t => out_ufac lift_ratio bbar_alt t sigstr) (J_ufac__sigma_ lift_ratio bbar_alt
      sigma_ sigstr) sigma_ ∧
    HasDerivAt (fun t => out_ufac lift_ratio bbar_alt sigma_ t) (J_ufac__sigstr lift_ratio bbar_alt
      sigma_ sigstr) sigstr :=
  ⟨d_ufac__bbar_alt _ _ _ _ h0 h1 h2 h3, d_ufac__sigma_ _ _ _ _ h0 h1 h2 h3, d_ufac__sigstr _ _ _
    _ h0 h1 h2 h3⟩

example : ∃ lift_ratio bbar_alt sigma_ sigstr : ℝ,
      0 < bbar_alt ∧
      0 < sigstr ∧
      0 < lift_ratio ∧
      0 < sigma_ :=
  ⟨1, 1, 1, 1, by comp_example, by comp_example, by comp_example, by comp_example⟩

end Verif.Comp.AerodynamicsGaspBasedGaspaero.UFac_transport

