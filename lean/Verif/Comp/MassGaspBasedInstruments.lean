import Verif.Lemmas.CompDeriv

/-! # Partial derivatives of the components of `aviary/subsystems/mass/gasp_based/instruments.py`

One node of a vector component is modelled over the real numbers.  Each option that selects a
branch is fixed, one namespace per choice.  `out_x` is the output `x`, `J_x__y` the entry that
`compute_partials` (or `declare_partials` with `val`) assigns, `d_x__y` the proof that the entry is
the derivative.  Inputs an output does not take as argument have no influence on it. -/

set_option linter.all false

namespace Verif.Comp.MassGaspBasedInstruments.InstrumentMass_turbojet
open Real

/-- aviary/subsystems/mass/gasp_based/instruments.py:43 -/
noncomputable abbrev num_pilots (crewpayload_design_num_passengers : ℝ) : ℝ :=
  if 9 < crewpayload_design_num_passengers then 2 else 1

/-- aviary/subsystems/mass/gasp_based/instruments.py:45 -/
noncomputable abbrev num_pilots_2 (crewpayload_design_num_passengers : ℝ) : ℝ :=
  if 5 < crewpayload_design_num_passengers then 2 else (num_pilots
    crewpayload_design_num_passengers)

/-- aviary/subsystems/mass/gasp_based/instruments.py:47 -/
noncomputable abbrev num_pilots_3 (crewpayload_design_num_passengers : ℝ) : ℝ :=
  if 351 ≤ crewpayload_design_num_passengers then 3 else (num_pilots_2
    crewpayload_design_num_passengers)

/-- aviary/subsystems/mass/gasp_based/instruments.py:77 -/
noncomputable abbrev dinstrument_wt_dmass_coeff_1 (propulsion_total_num_engines crewpayload_design_num_passengers fuselage_length design_gross_mass wing_span : ℝ) : ℝ :=
  ((((design_gross_mass ^ ((193 / 500) : ℝ)) * (propulsion_total_num_engines ^ ((687 / 1000) :
    ℝ))) * ((num_pilots_3 crewpayload_design_num_passengers) ^ ((31 / 100) : ℝ))) *
    (fuselage_length ^ ((1 / 20) : ℝ))) * (wing_span ^ ((87 / 125) : ℝ))

/-- aviary/subsystems/mass/gasp_based/instruments.py:88 -/
noncomputable abbrev dinstrument_wt_dgross_wt_initial (propulsion_total_num_engines crewpayload_design_num_passengers fuselage_length design_gross_mass instruments_mass_coefficient wing_span : ℝ) : ℝ :=
  ((((((193 / 500) * instruments_mass_coefficient) * (design_gross_mass ^ ((-(307 / 500)) : ℝ)))
    * (propulsion_total_num_engines ^ ((687 / 1000) : ℝ))) * ((num_pilots_3
    crewpayload_design_num_passengers) ^ ((31 / 100) : ℝ))) * (fuselage_length ^ ((1 / 20) :
    ℝ))) * (wing_span ^ ((87 / 125) : ℝ))

/-- aviary/subsystems/mass/gasp_based/instruments.py:99 -/
noncomputable abbrev dinstrument_wt_dfus_len (propulsion_total_num_engines crewpayload_design_num_passengers fuselage_length design_gross_mass instruments_mass_coefficient wing_span : ℝ) : ℝ :=
  ((((((1 / 20) * instruments_mass_coefficient) * (design_gross_mass ^ ((193 / 500) : ℝ))) *
    (propulsion_total_num_engines ^ ((687 / 1000) : ℝ))) * ((num_pilots_3
    crewpayload_design_num_passengers) ^ ((31 / 100) : ℝ))) * (fuselage_length ^ ((-(19 / 20)) :
    ℝ))) * (wing_span ^ ((87 / 125) : ℝ))

/-- aviary/subsystems/mass/gasp_based/instruments.py:110 -/
noncomputable abbrev dinstrument_wt_dwingspan (propulsion_total_num_engines crewpayload_design_num_passengers fuselage_length design_gross_mass instruments_mass_coefficient wing_span : ℝ) : ℝ :=
  ((((((87 / 125) * instruments_mass_coefficient) * (design_gross_mass ^ ((193 / 500) : ℝ))) *
    (propulsion_total_num_engines ^ ((687 / 1000) : ℝ))) * ((num_pilots_3
    crewpayload_design_num_passengers) ^ ((31 / 100) : ℝ))) * (fuselage_length ^ ((1 / 20) :
    ℝ))) * (wing_span ^ ((-(38 / 125)) : ℝ))

/-- Output `instruments_mass` of `InstrumentMass.compute`, aviary/subsystems/mass/gasp_based/instruments.py:50 -/
noncomputable def out_instruments_mass (propulsion_total_num_engines crewpayload_design_num_passengers fuselage_length design_gross_mass instruments_mass_coefficient wing_span : ℝ) : ℝ :=
  ((((instruments_mass_coefficient * (design_gross_mass ^ ((193 / 500) : ℝ))) *
    (propulsion_total_num_engines ^ ((687 / 1000) : ℝ))) * ((num_pilots_3
    crewpayload_design_num_passengers) ^ ((31 / 100) : ℝ))) * (fuselage_length ^ ((1 / 20) :
    ℝ))) * (wing_span ^ ((87 / 125) : ℝ))

/-- Partial of `instruments_mass` with respect to `instruments_mass_coefficient` as set by `InstrumentMass`, aviary/subsystems/mass/gasp_based/instruments.py:84 -/
noncomputable def J_instruments_mass__instruments_mass_coefficient (propulsion_total_num_engines crewpayload_design_num_passengers fuselage_length design_gross_mass wing_span : ℝ) : ℝ :=
  dinstrument_wt_dmass_coeff_1 propulsion_total_num_engines crewpayload_design_num_passengers
    fuselage_length design_gross_mass wing_span

/-- Partial of `instruments_mass` with respect to `design_gross_mass` as set by `InstrumentMass`, aviary/subsystems/mass/gasp_based/instruments.py:97 -/
noncomputable def J_instruments_mass__design_gross_mass (propulsion_total_num_engines crewpayload_design_num_passengers fuselage_length design_gross_mass instruments_mass_coefficient wing_span : ℝ) : ℝ :=
  dinstrument_wt_dgross_wt_initial propulsion_total_num_engines
    crewpayload_design_num_passengers fuselage_length design_gross_mass
    instruments_mass_coefficient wing_span

/-- Partial of `instruments_mass` with respect to `fuselage_length` as set by `InstrumentMass`, aviary/subsystems/mass/gasp_based/instruments.py:108 -/
noncomputable def J_instruments_mass__fuselage_length (propulsion_total_num_engines crewpayload_design_num_passengers fuselage_length design_gross_mass instruments_mass_coefficient wing_span : ℝ) : ℝ :=
  dinstrument_wt_dfus_len propulsion_total_num_engines crewpayload_design_num_passengers
    fuselage_length design_gross_mass instruments_mass_coefficient wing_span

/-- Partial of `instruments_mass` with respect to `wing_span` as set by `InstrumentMass`, aviary/subsystems/mass/gasp_based/instruments.py:119 -/
noncomputable def J_instruments_mass__wing_span (propulsion_total_num_engines crewpayload_design_num_passengers fuselage_length design_gross_mass instruments_mass_coefficient wing_span : ℝ) : ℝ :=
  dinstrument_wt_dwingspan propulsion_total_num_engines crewpayload_design_num_passengers
    fuselage_length design_gross_mass instruments_mass_coefficient wing_span

theorem d_instruments_mass__fuselage_length (propulsion_total_num_engines
    crewpayload_design_num_passengers fuselage_length design_gross_mass
    instruments_mass_coefficient wing_span : ℝ) (h0 : 0 < design_gross_mass) (h1 : 0 <
    propulsion_total_num_engines) (h2 : 0 < fuselage_length) (h3 : 0 < wing_span) :
    HasDerivAt (fun t => out_instruments_mass propulsion_total_num_engines crewpayload_design_num_passengers t design_gross_mass instruments_mass_coefficient wing_span) (J_instruments_mass__fuselage_length propulsion_total_num_engines crewpayload_design_num_passengers fuselage_length design_gross_mass instruments_mass_coefficient wing_span) fuselage_length := by
  have e0 : ∀ x : ℝ, 0 < x → x ^ ((-(19 / 20)) : ℝ) = x ^ ((1 / 20) : ℝ) / x ^ 1 := fun x hx => rpow_down hx 1 (by norm_num)
  simp only [out_instruments_mass, J_instruments_mass__fuselage_length, dinstrument_wt_dfus_len, num_pilots_3, num_pilots_2, num_pilots]
  try split_ifs
  all_goals (apply hasDerivAt_of_eq; on_goal 1 => (repeat' comp_step))
  all_goals try comp_side
  all_goals try simp (disch := first | assumption | positivity) only [e0]
  all_goals try split_ifs
  all_goals try (exfalso; linarith)
  all_goals try simp only [mul_zero, zero_mul, add_zero, zero_add, sub_zero, zero_sub, mul_one, one_mul]
  all_goals try push_cast
  all_goals comp_eq

theorem d_instruments_mass__design_gross_mass (propulsion_total_num_engines
    crewpayload_design_num_passengers fuselage_length design_gross_mass
    instruments_mass_coefficient wing_span : ℝ) (h0 : 0 < design_gross_mass) (h1 : 0 <
    propulsion_total_num_engines) (h2 : 0 < fuselage_length) (h3 : 0 < wing_span) :
    HasDerivAt (fun t => out_instruments_mass propulsion_total_num_engines crewpayload_design_num_passengers fuselage_length t instruments_mass_coefficient wing_span) (J_instruments_mass__design_gross_mass propulsion_total_num_engines crewpayload_design_num_passengers fuselage_length design_gross_mass instruments_mass_coefficient wing_span) design_gross_mass := by
  have e0 : ∀ x : ℝ, 0 < x → x ^ ((-(307 / 500)) : ℝ) = x ^ ((193 / 500) : ℝ) / x ^ 1 := fun x hx => rpow_down hx 1 (by norm_num)
  simp only [out_instruments_mass, J_instruments_mass__design_gross_mass, dinstrument_wt_dgross_wt_initial, num_pilots_3, num_pilots_2, num_pilots]
  try split_ifs
  all_goals (apply hasDerivAt_of_eq; on_goal 1 => (repeat' comp_step))
  all_goals try comp_side
  all_goals try simp (disch := first | assumption | positivity) only [e0]
  all_goals try split_ifs
  all_goals try (exfalso; linarith)
  all_goals try simp only [mul_zero, zero_mul, add_zero, zero_add, sub_zero, zero_sub, mul_one, one_mul]
  all_goals try push_cast
  all_goals comp_eq

theorem d_instruments_mass__instruments_mass_coefficient (propulsion_total_num_engines
    crewpayload_design_num_passengers fuselage_length design_gross_mass
    instruments_mass_coefficient wing_span : ℝ) (h0 : 0 < design_gross_mass) (h1 : 0 <
    propulsion_total_num_engines) (h2 : 0 < fuselage_length) (h3 : 0 < wing_span) :
    HasDerivAt (fun t => out_instruments_mass propulsion_total_num_engines crewpayload_design_num_passengers fuselage_length design_gross_mass t wing_span) (J_instruments_mass__instruments_mass_coefficient propulsion_total_num_engines crewpayload_design_num_passengers fuselage_length design_gross_mass wing_span) instruments_mass_coefficient := by
  simp only [out_instruments_mass, J_instruments_mass__instruments_mass_coefficient, dinstrument_wt_dmass_coeff_1, num_pilots_3, num_pilots_2, num_pilots]
  try split_ifs
  all_goals (apply hasDerivAt_of_eq; on_goal 1 => (repeat' comp_step))
  all_goals try comp_side
  all_goals try split_ifs
  all_goals try (exfalso; linarith)
  all_goals try simp only [mul_zero, zero_mul, add_zero, zero_add, sub_zero, zero_sub, mul_one, one_mul]
  all_goals try push_cast
  all_goals comp_eq

theorem d_instruments_mass__wing_span (propulsion_total_num_engines
    crewpayload_design_num_passengers fuselage_length design_gross_mass
    instruments_mass_coefficient wing_span : ℝ) (h0 : 0 < design_gross_mass) (h1 : 0 <
    propulsion_total_num_engines) (h2 : 0 < fuselage_length) (h3 : 0 < wing_span) :
    HasDerivAt (fun t => out_instruments_mass propulsion_total_num_engines crewpayload_design_num_passengers fuselage_length design_gross_mass instruments_mass_coefficient t) (J_instruments_mass__wing_span propulsion_total_num_engines crewpayload_design_num_passengers fuselage_length design_gross_mass instruments_mass_coefficient wing_span) wing_span := by
  have e0 : ∀ x : ℝ, 0 < x → x ^ ((-(38 / 125)) : ℝ) = x ^ ((87 / 125) : ℝ) / x ^ 1 := fun x hx => rpow_down hx 1 (by norm_num)
  simp only [out_instruments_mass, J_instruments_mass__wing_span, dinstrument_wt_dwingspan, num_pilots_3, num_pilots_2, num_pilots]
  try split_ifs
  all_goals (apply hasDerivAt_of_eq; on_goal 1 => (repeat' comp_step))
  all_goals try comp_side
  all_goals try simp (disch := first | assumption | positivity) only [e0]
  all_goals try split_ifs
  all_goals try (exfalso; linarith)
  all_goals try simp only [mul_zero, zero_mul, add_zero, zero_add, sub_zero, zero_sub, mul_one, one_mul]
  all_goals try push_cast
  all_goals comp_eq

/-- Every partial derivative set by `InstrumentMass` is the derivative of its output. -/
theorem partials (propulsion_total_num_engines crewpayload_design_num_passengers fuselage_length
    design_gross_mass instruments_mass_coefficient wing_span : ℝ) (h0 : 0 < design_gross_mass) (h1
    : 0 < propulsion_total_num_engines) (h2 : 0 < fuselage_length) (h3 : 0 < wing_span) :
    HasDerivAt (fun t => out_instruments_mass propulsion_total_num_engines
      crewpayload_design_num_passengers t design_gross_mass instruments_mass_coefficient
      wing_span) (J_instruments_mass__fuselage_length propulsion_total_num_engines
      crewpayload_design_num_passengers fuselage_length design_gross_mass
      instruments_mass_coefficient wing_span) fuselage_length ∧
    HasDerivAt (fun t => out_instruments_mass propulsion_total_num_engines
      crewpayload_design_num_passengers fuselage_length t instruments_mass_coefficient wing_span)
      (J_instruments_mass__design_gross_mass propulsion_total_num_engines
      crewpayload_design_num_passengers fuselage_length design_gross_mass
      instruments_mass_coefficient wing_span) design_gross_mass ∧
    HasDerivAt (fun t => out_instruments_mass propulsion_total_num_engines
      crewpayload_design_num_passengers fuselage_length design_gross_mass t wing_span)
      (J_instruments_mass__instruments_mass_coefficient propulsion_total_num_engines
      crewpayload_design_num_passengers fuselage_length design_gross_mass wing_span)
      instruments_mass_coefficient ∧
    HasDerivAt (fun t => out_instruments_mass propulsion_total_num_engines
      crewpayload_design_num_passengers fuselage_length design_gross_mass
      instruments_mass_coefficient t) (J_instruments_mass__wing_span propulsion_total_num_engines
      crewpayload_design_num_passengers fuselage_length design_gross_mass
      instruments_mass_coefficient wing_span) wing_span :=
  ⟨d_instruments_mass__fuselage_length _ _ _ _ _ _ h0 h1 h2 h3,
    d_instruments_mass__design_gross_mass _ _ _ _ _ _ h0 h1 h2 h3,
    d_instruments_mass__instruments_mass_coefficient _ _ _ _ _ _ h0 h1 h2 h3,
    d_instruments_mass__wing_span _ _ _ _ _ _ h0 h1 h2 h3⟩

example : ∃ propulsion_total_num_engines crewpayload_design_num_passengers fuselage_length
      design_gross_mass instruments_mass_coefficient wing_span : ℝ,
      0 < design_gross_mass ∧
      0 < propulsion_total_num_engines ∧
      0 < fuselage_length ∧
      0 < wing_span :=
  ⟨1, 0, 1, 1, 0, 1, by comp_example, by comp_example, by comp_example, by comp_example⟩

end Verif.Comp.MassGaspBasedInstruments.InstrumentMass_turbojet

namespace Verif.Comp.MassGaspBasedInstruments.InstrumentMass_otherenginetype
open Real

/-- aviary/subsystems/mass/gasp_based/instruments.py:43 -/
noncomputable abbrev num_pilots (crewpayload_design_num_passengers : ℝ) : ℝ :=
  if 9 < crewpayload_design_num_passengers then 2 else 1

/-- aviary/subsystems/mass/gasp_based/instruments.py:47 -/
noncomputable abbrev num_pilots_2 (crewpayload_design_num_passengers : ℝ) : ℝ :=
  if 351 ≤ crewpayload_design_num_passengers then 3 else (num_pilots
    crewpayload_design_num_passengers)

/-- aviary/subsystems/mass/gasp_based/instruments.py:77 -/
noncomputable abbrev dinstrument_wt_dmass_coeff_1 (propulsion_total_num_engines crewpayload_design_num_passengers fuselage_length design_gross_mass wing_span : ℝ) : ℝ :=
  ((((design_gross_mass ^ ((193 / 500) : ℝ)) * (propulsion_total_num_engines ^ ((687 / 1000) :
    ℝ))) * ((num_pilots_2 crewpayload_design_num_passengers) ^ ((31 / 100) : ℝ))) *
    (fuselage_length ^ ((1 / 20) : ℝ))) * (wing_span ^ ((87 / 125) : ℝ))

/-- aviary/subsystems/mass/gasp_based/instruments.py:88 -/
noncomputable abbrev dinstrument_wt_dgross_wt_initial (propulsion_total_num_engines crewpayload_design_num_passengers fuselage_length design_gross_mass instruments_mass_coefficient wing_span : ℝ) : ℝ :=
  ((((((193 / 500) * instruments_mass_coefficient) * (design_gross_mass ^ ((-(307 / 500)) : ℝ)))
    * (propulsion_total_num_engines ^ ((687 / 1000) : ℝ))) * ((num_pilots_2
    crewpayload_design_num_passengers) ^ ((31 / 100) : ℝ))) * (fuselage_length ^ ((1 / 20) :
    ℝ))) * (wing_span ^ ((87 / 125) : ℝ))

/-- aviary/subsystems/mass/gasp_based/instruments.py:99 -/
noncomputable abbrev dinstrument_wt_dfus_len (propulsion_total_num_engines crewpayload_design_num_passengers fuselage_length design_gross_mass instruments_mass_coefficient wing_span : ℝ) : ℝ :=
  ((((((1 / 20) * instruments_mass_coefficient) * (design_gross_mass ^ ((193 / 500) : ℝ))) *
    (propulsion_total_num_engines ^ ((687 / 1000) : ℝ))) * ((num_pilots_2
    crewpayload_design_num_passengers) ^ ((31 / 100) : ℝ))) * (fuselage_length ^ ((-(19 / 20)) :
    ℝ))) * (wing_span ^ ((87 / 125) : ℝ))

/-- aviary/subsystems/mass/gasp_based/instruments.py:110 -/
noncomputable abbrev dinstrument_wt_dwingspan (propulsion_total_num_engines crewpayload_design_num_passengers fuselage_length design_gross_mass instruments_mass_coefficient wing_span : ℝ) : ℝ :=
  ((((((87 / 125) * instruments_mass_coefficient) * (design_gross_mass ^ ((193 / 500) : ℝ))) *
    (propulsion_total_num_engines ^ ((687 / 1000) : ℝ))) * ((num_pilots_2
    crewpayload_design_num_passengers) ^ ((31 / 100) : ℝ))) * (fuselage_length ^ ((1 / 20) :
    ℝ))) * (wing_span ^ ((-(38 / 125)) : ℝ))

/-- Output `instruments_mass` of `InstrumentMass.compute`, aviary/subsystems/mass/gasp_based/instruments.py:50 -/
noncomputable def out_instruments_mass (propulsion_total_num_engines crewpayload_design_num_passengers fuselage_length design_gross_mass instruments_mass_coefficient wing_span : ℝ) : ℝ :=
  ((((instruments_mass_coefficient * (design_gross_mass ^ ((193 / 500) : ℝ))) *
    (propulsion_total_num_engines ^ ((687 / 1000) : ℝ))) * ((num_pilots_2
    crewpayload_design_num_passengers) ^ ((31 / 100) : ℝ))) * (fuselage_length ^ ((1 / 20) :
    ℝ))) * (wing_span ^ ((87 / 125) : ℝ))

/-- Partial of `instruments_mass` with respect to `instruments_mass_coefficient` as set by `InstrumentMass`, aviary/subsystems/mass/gasp_based/instruments.py:84 -/
noncomputable def J_instruments_mass__instruments_mass_coefficient (propulsion_total_num_engines crewpayload_design_num_passengers fuselage_length design_gross_mass wing_span : ℝ) : ℝ :=
  dinstrument_wt_dmass_coeff_1 propulsion_total_num_engines crewpayload_design_num_passengers
    fuselage_length design_gross_mass wing_span

/-- Partial of `instruments_mass` with respect to `design_gross_mass` as set by `InstrumentMass`, aviary/subsystems/mass/gasp_based/instruments.py:97 -/
noncomputable def J_instruments_mass__design_gross_mass (propulsion_total_num_engines crewpayload_design_num_passengers fuselage_length design_gross_mass instruments_mass_coefficient wing_span : ℝ) : ℝ :=
  dinstrument_wt_dgross_wt_initial propulsion_total_num_engines
    crewpayload_design_num_passengers fuselage_length design_gross_mass
    instruments_mass_coefficient wing_span

/-- Partial of `instruments_mass` with respect to `fuselage_length` as set by `InstrumentMass`, aviary/subsystems/mass/gasp_based/instruments.py:108 -/
noncomputable def J_instruments_mass__fuselage_length (propulsion_total_num_engines crewpayload_design_num_passengers fuselage_length design_gross_mass instruments_mass_coefficient wing_span : ℝ) : ℝ :=
  dinstrument_wt_dfus_len propulsion_total_num_engines crewpayload_design_num_passengers
    fuselage_length design_gross_mass instruments_mass_coefficient wing_span

/-- Partial of `instruments_mass` with respect to `wing_span` as set by `InstrumentMass`, aviary/subsystems/mass/gasp_based/instruments.py:119 -/
noncomputable def J_instruments_mass__wing_span (propulsion_total_num_engines crewpayload_design_num_passengers fuselage_length design_gross_mass instruments_mass_coefficient wing_span : ℝ) : ℝ :=
  dinstrument_wt_dwingspan propulsion_total_num_engines crewpayload_design_num_passengers
    fuselage_length design_gross_mass instruments_mass_coefficient wing_span

theorem d_instruments_mass__fuselage_length (propulsion_total_num_engines
    crewpayload_design_num_passengers fuselage_length design_gross_mass
    instruments_mass_coefficient wing_span : ℝ) (h0 : 0 < design_gross_mass) (h1 : 0 <
    propulsion_total_num_engines) (h2 : 0 < fuselage_length) (h3 : 0 < wing_span) :
    HasDerivAt (fun t => out_instruments_mass propulsion_total_num_engines crewpayload_design_num_passengers t design_gross_mass instruments_mass_coefficient wing_span) (J_instruments_mass__fuselage_length propulsion_total_num_engines crewpayload_design_num_passengers fuselage_length design_gross_mass instruments_mass_coefficient wing_span) fuselage_length := by
  have e0 : ∀ x : ℝ, 0 < x → x ^ ((-(19 / 20)) : ℝ) = x ^ ((1 / 20) : ℝ) / x ^ 1 := fun x hx => rpow_down hx 1 (by norm_num)
  simp only [out_instruments_mass, J_instruments_mass__fuselage_length, dinstrument_wt_dfus_len, num_pilots_2, num_pilots]
  try split_ifs
  all_goals (apply hasDerivAt_of_eq; on_goal 1 => (repeat' comp_step))
  all_goals try comp_side
  all_goals try simp (disch := first | assumption | positivity) only [e0]
  all_goals try split_ifs
  all_goals try (exfalso; linarith)
  all_goals try simp only [mul_zero, zero_mul, add_zero, zero_add, sub_zero, zero_sub, mul_one, one_mul]
  all_goals try push_cast
  all_goals comp_eq

theorem d_instruments_mass__design_gross_mass (propulsion_total_num_engines
    crewpayload_design_num_passengers fuselage_length design_gross_mass
    instruments_mass_coefficient wing_span : ℝ) (h0 : 0 < design_gross_mass) (h1 : 0 <
    propulsion_total_num_engines) (h2 : 0 < fuselage_length) (h3 : 0 < wing_span) :
    HasDerivAt (fun t => out_instruments_mass propulsion_total_num_engines crewpayload_design_num_passengers fuselage_length t instruments_mass_coefficient wing_span) (J_instruments_mass__design_gross_mass propulsion_total_num_engines crewpayload_design_num_passengers fuselage_length design_gross_mass instruments_mass_coefficient wing_span) design_gross_mass := by
  have e0 : ∀ x : ℝ, 0 < x → x ^ ((-(307 / 500)) : ℝ) = x ^ ((193 / 500) : ℝ) / x ^ 1 := fun x hx => rpow_down hx 1 (by norm_num)
  simp only [out_instruments_mass, J_instruments_mass__design_gross_mass, dinstrument_wt_dgross_wt_initial, num_pilots_2, num_pilots]
  try split_ifs
  all_goals (apply hasDerivAt_of_eq; on_goal 1 => (repeat' comp_step))
  all_goals try comp_side
  all_goals try simp (disch := first | assumption | positivity) only [e0]
  all_goals try split_ifs
  all_goals try (exfalso; linarith)
  all_goals try simp only [mul_zero, zero_mul, add_zero, zero_add, sub_zero, zero_sub, mul_one, one_mul]
  all_goals try push_cast
  all_goals comp_eq

theorem d_instruments_mass__instruments_mass_coefficient (propulsion_total_num_engines
    crewpayload_design_num_passengers fuselage_length design_gross_mass
    instruments_mass_coefficient wing_span : ℝ) (h0 : 0 < design_gross_mass) (h1 : 0 <
    propulsion_total_num_engines) (h2 : 0 < fuselage_length) (h3 : 0 < wing_span) :
    HasDerivAt (fun t => out_instruments_mass propulsion_total_num_engines crewpayload_design_num_passengers fuselage_length design_gross_mass t wing_span) (J_instruments_mass__instruments_mass_coefficient propulsion_total_num_engines crewpayload_design_num_passengers fuselage_length design_gross_mass wing_span) instruments_mass_coefficient := by
  simp only [out_instruments_mass, J_instruments_mass__instruments_mass_coefficient, dinstrument_wt_dmass_coeff_1, num_pilots_2, num_pilots]
  try split_ifs
  all_goals (apply hasDerivAt_of_eq; on_goal 1 => (repeat' comp_step))
  all_goals try comp_side
  all_goals try split_ifs
  all_goals try (exfalso; linarith)
  all_goals try simp only [mul_zero, zero_mul, add_zero, zero_add, sub_zero, zero_sub, mul_one, one_mul]
  all_goals try push_cast
  all_goals comp_eq

theorem d_instruments_mass__wing_span (propulsion_total_num_engines
    crewpayload_design_num_passengers fuselage_length design_gross_mass
    instruments_mass_coefficient wing_span : ℝ) (h0 : 0 < design_gross_mass) (h1 : 0 <
    propulsion_total_num_engines) (h2 : 0 < fuselage_length) (h3 : 0 < wing_span) :
    HasDerivAt (fun t => out_instruments_mass propulsion_total_num_engines crewpayload_design_num_passengers fuselage_length design_gross_mass instruments_mass_coefficient t) (J_instruments_mass__wing_span propulsion_total_num_engines crewpayload_design_num_passengers fuselage_length design_gross_mass instruments_mass_coefficient wing_span) wing_span := by
  have e0 : ∀ x : ℝ, 0 < x → x ^ ((-(38 / 125)) : ℝ) = x ^ ((87 / 125) : ℝ) / x ^ 1 := fun x hx => rpow_down hx 1 (by norm_num)
  simp only [out_instruments_mass, J_instruments_mass__wing_span, dinstrument_wt_dwingspan, num_pilots_2, num_pilots]
  try split_ifs
  all_goals (apply hasDerivAt_of_eq; on_goal 1 => (repeat' comp_step))
  all_goals try comp_side
  all_goals try simp (disch := first | assumption | positivity) only [e0]
  all_goals try split_ifs
  all_goals try (exfalso; linarith)
  all_goals try simp only [mul_zero, zero_mul, add_zero, zero_add, sub_zero, zero_sub, mul_one, one_mul]
  all_goals try push_cast
  all_goals comp_eq

/-- Every partial derivative set by `InstrumentMass` is the derivative of its output. -/
theorem partials (propulsion_total_num_engines crewpayload_design_num_passengers fuselage_length
    design_gross_mass instruments_mass_coefficient wing_span : ℝ) (h0 : 0 < design_gross_mass) (h1
    : 0 < propulsion_total_num_engines) (h2 : 0 < fuselage_length) (h3 : 0 < wing_span) :
    HasDerivAt (fun t => out_instruments_mass propulsion_total_num_engines
      crewpayload_design_num_passengers t design_gross_mass instruments_mass_coefficient
      wing_span) (J_instruments_mass__fuselage_length propulsion_total_num_engines
      crewpayload_design_num_passengers fuselage_length design_gross_mass
      instruments_mass_coefficient wing_span) fuselage_length ∧
    HasDerivAt (fun t => out_instruments_mass propulsion_total_num_engines
      crewpayload_design_num_passengers fuselage_length t instruments_mass_coefficient wing_span)
      (J_instruments_mass__design_gross_mass propulsion_total_num_engines
      crewpayload_design_num_passengers fuselage_length design_gross_mass
      instruments_mass_coefficient wing_span) design_gross_mass ∧
    HasDerivAt (fun t => out_instruments_mass propulsion_total_num_engines
      crewpayload_design_num_passengers fuselage_length design_gross_mass t wing_span)
      (J_instruments_mass__instruments_mass_coefficient propulsion_total_num_engines
      crewpayload_design_num_passengers fuselage_length design_gross_mass wing_span)
      instruments_mass_coefficient ∧
    HasDerivAt (fun t => out_instruments_mass propulsion_total_num_engines
      crewpayload_design_num_passengers fuselage_length design_gross_mass
      instruments_mass_coefficient t) (J_instruments_mass__wing_span propulsion_total_num_engines
      crewpayload_design_num_passengers fuselage_length design_gross_mass
      instruments_mass_coefficient wing_span) wing_span :=
  ⟨d_instruments_mass__fuselage_length _ _ _ _ _ _ h0 h1 h2 h3,
    d_instruments_mass__design_gross_mass _ _ _ _ _ _ h0 h1 h2 h3,
    d_instruments_mass__instruments_mass_coefficient _ _ _ _ _ _ h0 h1 h2 h3,
    d_instruments_mass__wing_span _ _ _ _ _ _ h0 h1 h2 h3⟩

example : ∃ propulsion_total_num_engines crewpayload_design_num_passengers fuselage_length
      design_gross_mass instruments_mass_coefficient wing_span : ℝ,
      0 < design_gross_mass ∧
      0 < propulsion_total_num_engines ∧
      0 < fuselage_length ∧
      0 < wing_span :=
  ⟨1, 0, 1, 1, 0, 1, by comp_example, by comp_example, by comp_example, by comp_example⟩

end Verif.Comp.MassGaspBasedInstruments.InstrumentMass_otherenginetype

