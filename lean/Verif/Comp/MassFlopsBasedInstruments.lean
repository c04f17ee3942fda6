import Verif.Lemmas.CompDeriv

/-! # Partial derivatives of the components of `aviary/subsystems/mass/flops_based/instruments.py`

One node of a vector component is modelled over the real numbers.  Each option that selects a
branch is fixed, one namespace per choice.  `out_x` is the output `x`, `J_x__y` the entry that
`compute_partials` (or `declare_partials` with `val`) assigns, `d_x__y` the proof that the entry is
the derivative.  Inputs an output does not take as argument have no influence on it. -/

set_option linter.all false

namespace Verif.Comp.MassFlopsBasedInstruments.TransportInstrumentMass
open Real

/-- aviary/subsystems/mass/flops_based/instruments.py:43 -/
noncomputable def instrument_weight (crewpayload_num_flight_crew distributed_engine_count_factor_of_propulsion_total_num_wing_engines distributed_engine_count_factor_of_propulsion_total_num_fuselage_engines constraints_max_mach fuselage_planform_area : ℝ) : ℝ :=
  (((12 / 25) * (fuselage_planform_area ^ ((57 / 100) : ℝ))) * (constraints_max_mach ^ ((1 / 2)
    : ℝ))) * (((10 + ((5 / 2) * crewpayload_num_flight_crew)) +
    distributed_engine_count_factor_of_propulsion_total_num_wing_engines) + ((3 / 2) *
    distributed_engine_count_factor_of_propulsion_total_num_fuselage_engines))

/-- aviary/subsystems/mass/flops_based/instruments.py:63 -/
noncomputable def fact (crewpayload_num_flight_crew distributed_engine_count_factor_of_propulsion_total_num_wing_engines distributed_engine_count_factor_of_propulsion_total_num_fuselage_engines : ℝ) : ℝ :=
  ((10 + ((5 / 2) * crewpayload_num_flight_crew)) +
    distributed_engine_count_factor_of_propulsion_total_num_wing_engines) + ((3 / 2) *
    distributed_engine_count_factor_of_propulsion_total_num_fuselage_engines)

/-- aviary/subsystems/mass/flops_based/instruments.py:64 -/
noncomputable def area_fact (fuselage_planform_area : ℝ) : ℝ :=
  fuselage_planform_area ^ ((57 / 100) : ℝ)

/-- aviary/subsystems/mass/flops_based/instruments.py:65 -/
noncomputable def mach_fact (constraints_max_mach : ℝ) : ℝ := constraints_max_mach ^ ((1 / 2) : ℝ)

/-- Output `instruments_mass` of `TransportInstrumentMass.compute`, aviary/subsystems/mass/flops_based/instruments.py:50 -/
noncomputable def out_instruments_mass (crewpayload_num_flight_crew distributed_engine_count_factor_of_propulsion_total_num_wing_engines distributed_engine_count_factor_of_propulsion_total_num_fuselage_engines constraints_max_mach fuselage_planform_area instruments_mass_scaler : ℝ) : ℝ :=
  (instrument_weight crewpayload_num_flight_crew
    distributed_engine_count_factor_of_propulsion_total_num_wing_engines
    distributed_engine_count_factor_of_propulsion_total_num_fuselage_engines
    constraints_max_mach fuselage_planform_area) * instruments_mass_scaler

/-- Partial of `instruments_mass` with respect to `fuselage_planform_area` as set by `TransportInstrumentMass`, aviary/subsystems/mass/flops_based/instruments.py:67 -/
noncomputable def J_instruments_mass__fuselage_planform_area (crewpayload_num_flight_crew distributed_engine_count_factor_of_propulsion_total_num_wing_engines distributed_engine_count_factor_of_propulsion_total_num_fuselage_engines constraints_max_mach fuselage_planform_area instruments_mass_scaler : ℝ) : ℝ :=
  ((((171 / 625) * (fuselage_planform_area ^ ((-(43 / 100)) : ℝ))) * (mach_fact
    constraints_max_mach)) * (fact crewpayload_num_flight_crew
    distributed_engine_count_factor_of_propulsion_total_num_wing_engines
    distributed_engine_count_factor_of_propulsion_total_num_fuselage_engines)) *
    instruments_mass_scaler

/-- Partial of `instruments_mass` with respect to `instruments_mass_scaler` as set by `TransportInstrumentMass`, aviary/subsystems/mass/flops_based/instruments.py:71 -/
noncomputable def J_instruments_mass__instruments_mass_scaler (crewpayload_num_flight_crew distributed_engine_count_factor_of_propulsion_total_num_wing_engines distributed_engine_count_factor_of_propulsion_total_num_fuselage_engines constraints_max_mach fuselage_planform_area : ℝ) : ℝ :=
  (((12 / 25) * (area_fact fuselage_planform_area)) * (mach_fact constraints_max_mach)) * (fact
    crewpayload_num_flight_crew
    distributed_engine_count_factor_of_propulsion_total_num_wing_engines
    distributed_engine_count_factor_of_propulsion_total_num_fuselage_engines)

theorem d_instruments_mass__fuselage_planform_area (crewpayload_num_flight_crew
    distributed_engine_count_factor_of_propulsion_total_num_wing_engines
    distributed_engine_count_factor_of_propulsion_total_num_fuselage_engines constraints_max_mach
    fuselage_planform_area instruments_mass_scaler : ℝ) (h0 : 0 < fuselage_planform_area) (h1 : 0
    < constraints_max_mach) :
    HasDerivAt (fun t => out_instruments_mass crewpayload_num_flight_crew distributed_engine_count_factor_of_propulsion_total_num_wing_engines distributed_engine_count_factor_of_propulsion_total_num_fuselage_engines constraints_max_mach t instruments_mass_scaler) (J_instruments_mass__fuselage_planform_area crewpayload_num_flight_crew distributed_engine_count_factor_of_propulsion_total_num_wing_engines distributed_engine_count_factor_of_propulsion_total_num_fuselage_engines constraints_max_mach fuselage_planform_area instruments_mass_scaler) fuselage_planform_area := by
  have e0 : ∀ x : ℝ, 0 < x → x ^ ((-(43 / 100)) : ℝ) = x ^ ((57 / 100) : ℝ) / x ^ 1 := fun x hx => rpow_down hx 1 (by norm_num)
  simp only [out_instruments_mass, J_instruments_mass__fuselage_planform_area, fact, mach_fact, instrument_weight]
  (apply hasDerivAt_of_eq; on_goal 1 => (repeat' comp_step))
  all_goals try comp_side
  all_goals try simp (disch := first | assumption | positivity) only [e0, div_mul_eq_div_div, div_half, inv_half]
  all_goals try simp only [mul_zero, zero_mul, add_zero, zero_add, sub_zero, zero_sub, mul_one, one_mul]
  all_goals try push_cast
  all_goals comp_eq

theorem d_instruments_mass__instruments_mass_scaler (crewpayload_num_flight_crew
    distributed_engine_count_factor_of_propulsion_total_num_wing_engines
    distributed_engine_count_factor_of_propulsion_total_num_fuselage_engines constraints_max_mach
    fuselage_planform_area instruments_mass_scaler : ℝ) (h0 : 0 < fuselage_planform_area) (h1 : 0
    < constraints_max_mach) :
    HasDerivAt (fun t => out_instruments_mass crewpayload_num_flight_crew distributed_engine_count_factor_of_propulsion_total_num_wing_engines distributed_engine_count_factor_of_propulsion_total_num_fuselage_engines constraints_max_mach fuselage_planform_area t) (J_instruments_mass__instruments_mass_scaler crewpayload_num_flight_crew distributed_engine_count_factor_of_propulsion_total_num_wing_engines distributed_engine_count_factor_of_propulsion_total_num_fuselage_engines constraints_max_mach fuselage_planform_area) instruments_mass_scaler := by
  simp only [out_instruments_mass, J_instruments_mass__instruments_mass_scaler, fact, mach_fact, area_fact, instrument_weight]
  (apply hasDerivAt_of_eq; on_goal 1 => (repeat' comp_step))
  all_goals try comp_side
  all_goals try simp (disch := first | assumption | positivity) only [div_mul_eq_div_div, div_half, inv_half]
  all_goals try simp only [mul_zero, zero_mul, add_zero, zero_add, sub_zero, zero_sub, mul_one, one_mul]
  all_goals try push_cast
  all_goals comp_eq

/-- Every partial derivative set by `TransportInstrumentMass` is the derivative of its output. -/
theorem partials (crewpayload_num_flight_crew
    distributed_engine_count_factor_of_propulsion_total_num_wing_engines
    distributed_engine_count_factor_of_propulsion_total_num_fuselage_engines constraints_max_mach
    fuselage_planform_area instruments_mass_scaler : ℝ) (h0 : 0 < fuselage_planform_area) (h1 : 0
    < constraints_max_mach) :
    HasDerivAt (fun t => out_instruments_mass crewpayload_num_flight_crew
      distributed_engine_count_factor_of_propulsion_total_num_wing_engines
      distributed_engine_count_factor_of_propulsion_total_num_fuselage_engines
      constraints_max_mach t instruments_mass_scaler) (J_instruments_mass__fuselage_planform_area
      crewpayload_num_flight_crew
      distributed_engine_count_factor_of_propulsion_total_num_wing_engines
      distributed_engine_count_factor_of_propulsion_total_num_fuselage_engines
      constraints_max_mach fuselage_planform_area instruments_mass_scaler) fuselage_planform_area ∧
    HasDerivAt (fun t => out_instruments_mass crewpayload_num_flight_crew
      distributed_engine_count_factor_of_propulsion_total_num_wing_engines
      distributed_engine_count_factor_of_propulsion_total_num_fuselage_engines
      constraints_max_mach fuselage_planform_area t) (J_instruments_mass__instruments_mass_scaler
      crewpayload_num_flight_crew
      distributed_engine_count_factor_of_propulsion_total_num_wing_engines
      distributed_engine_count_factor_of_propulsion_total_num_fuselage_engines
      constraints_max_mach fuselage_planform_area) instruments_mass_scaler :=
  ⟨d_instruments_mass__fuselage_planform_area _ _ _ _ _ _ h0 h1,
    d_instruments_mass__instruments_mass_scaler _ _ _ _ _ _ h0 h1⟩

example : ∃ crewpayload_num_flight_crew
      distributed_engine_count_factor_of_propulsion_total_num_wing_engines
      distributed_engine_count_factor_of_propulsion_total_num_fuselage_engines
      constraints_max_mach fuselage_planform_area instruments_mass_scaler : ℝ,
      0 < fuselage_planform_area ∧
      0 < constraints_max_mach :=
  ⟨0, 0, 0, 1, 1, 0, by comp_example, by comp_example⟩

end Verif.Comp.MassFlopsBasedInstruments.TransportInstrumentMass

