import Verif.Lemmas.CompDeriv

/-! # Partial derivatives of the components of `aviary/subsystems/mass/flops_based/electrical.py`

One node of a vector component is modelled over the real numbers.  Each option that selects a
branch is fixed, one namespace per choice.  `out_x` is the output `x`, `J_x__y` the entry that
`compute_partials` (or `declare_partials` with `val`) assigns, `d_x__y` the proof that the entry is
the derivative.  Inputs an output does not take as argument have no influence on it. -/

set_option linter.all false

namespace Verif.Comp.MassFlopsBasedElectrical.AltElectricalMass
open Real

/-- Output `electrical_mass` of `AltElectricalMass.compute`, aviary/subsystems/mass/flops_based/electrical.py:100 -/
noncomputable def out_electrical_mass (crewpayload_design_num_passengers electrical_mass_scaler : ℝ) : ℝ :=
  ((163 / 10) * crewpayload_design_num_passengers) * electrical_mass_scaler

/-- Partial of `electrical_mass` with respect to `electrical_mass_scaler` as set by `AltElectricalMass`, aviary/subsystems/mass/flops_based/electrical.py:105 -/
noncomputable def J_electrical_mass__electrical_mass_scaler (crewpayload_design_num_passengers : ℝ) : ℝ :=
  (163 / 10) * crewpayload_design_num_passengers

theorem d_electrical_mass__electrical_mass_scaler (crewpayload_design_num_passengers
    electrical_mass_scaler : ℝ)  :
    HasDerivAt (fun t => out_electrical_mass crewpayload_design_num_passengers t) (J_electrical_mass__electrical_mass_scaler crewpayload_design_num_passengers) electrical_mass_scaler := by
  simp only [out_electrical_mass, J_electrical_mass__electrical_mass_scaler]
  (apply hasDerivAt_of_eq; on_goal 1 => (repeat' comp_step))
  all_goals try comp_side
  all_goals try simp only [mul_zero, zero_mul, add_zero, zero_add, sub_zero, zero_sub, mul_one, one_mul]
  all_goals try push_cast
  all_goals comp_eq

/-- Every partial derivative set by `AltElectricalMass` is the derivative of its output. -/
theorem partials (crewpayload_design_num_passengers electrical_mass_scaler : ℝ) :
    HasDerivAt (fun t => out_electrical_mass crewpayload_design_num_passengers t)
      (J_electrical_mass__electrical_mass_scaler crewpayload_design_num_passengers)
      electrical_mass_scaler :=
  d_electrical_mass__electrical_mass_scaler _ _

end Verif.Comp.MassFlopsBasedElectrical.AltElectricalMass

namespace Verif.Comp.MassFlopsBasedElectrical.ElectricalMass
open Real

/-- aviary/subsystems/mass/flops_based/electrical.py:64 -/
noncomputable def fact (fuselage_num_fuselages crewpayload_num_flight_crew crewpayload_design_num_passengers : ℝ) : ℝ :=
  (92 * (fuselage_num_fuselages ^ ((27 / 100) : ℝ))) * ((1 + ((11 / 250) *
    crewpayload_num_flight_crew)) + ((3 / 2000) * crewpayload_design_num_passengers))

/-- aviary/subsystems/mass/flops_based/electrical.py:65 -/
noncomputable def length_fact (fuselage_length : ℝ) : ℝ := fuselage_length ^ ((2 / 5) : ℝ)

/-- aviary/subsystems/mass/flops_based/electrical.py:66 -/
noncomputable def width_fact (fuselage_max_width : ℝ) : ℝ := fuselage_max_width ^ ((7 / 50) : ℝ)

/-- aviary/subsystems/mass/flops_based/electrical.py:67 -/
noncomputable def ecf_fact (distributed_engine_count_factor_of_propulsion_total_num_engines : ℝ) : ℝ :=
  distributed_engine_count_factor_of_propulsion_total_num_engines ^ ((69 / 100) : ℝ)

/-- Output `electrical_mass` of `ElectricalMass.compute`, aviary/subsystems/mass/flops_based/electrical.py:42 -/
noncomputable def out_electrical_mass (fuselage_num_fuselages crewpayload_num_flight_crew crewpayload_design_num_passengers distributed_engine_count_factor_of_propulsion_total_num_engines fuselage_length fuselage_max_width electrical_mass_scaler : ℝ) : ℝ :=
  (((((92 * (fuselage_length ^ ((2 / 5) : ℝ))) * (fuselage_max_width ^ ((7 / 50) : ℝ))) *
    (fuselage_num_fuselages ^ ((27 / 100) : ℝ))) *
    (distributed_engine_count_factor_of_propulsion_total_num_engines ^ ((69 / 100) : ℝ))) * ((1
    + ((11 / 250) * crewpayload_num_flight_crew)) + ((3 / 2000) *
    crewpayload_design_num_passengers))) * electrical_mass_scaler

/-- Partial of `electrical_mass` with respect to `fuselage_length` as set by `ElectricalMass`, aviary/subsystems/mass/flops_based/electrical.py:69 -/
noncomputable def J_electrical_mass__fuselage_length (fuselage_num_fuselages crewpayload_num_flight_crew crewpayload_design_num_passengers distributed_engine_count_factor_of_propulsion_total_num_engines fuselage_length fuselage_max_width electrical_mass_scaler : ℝ) : ℝ :=
  (((((2 / 5) * (fuselage_length ^ ((-(3 / 5)) : ℝ))) * (fact fuselage_num_fuselages
    crewpayload_num_flight_crew crewpayload_design_num_passengers)) * (width_fact
    fuselage_max_width)) * (ecf_fact
    distributed_engine_count_factor_of_propulsion_total_num_engines)) * electrical_mass_scaler

/-- Partial of `electrical_mass` with respect to `fuselage_max_width` as set by `ElectricalMass`, aviary/subsystems/mass/flops_based/electrical.py:73 -/
noncomputable def J_electrical_mass__fuselage_max_width (fuselage_num_fuselages crewpayload_num_flight_crew crewpayload_design_num_passengers distributed_engine_count_factor_of_propulsion_total_num_engines fuselage_length fuselage_max_width electrical_mass_scaler : ℝ) : ℝ :=
  (((((7 / 50) * (fuselage_max_width ^ ((-(43 / 50)) : ℝ))) * (fact fuselage_num_fuselages
    crewpayload_num_flight_crew crewpayload_design_num_passengers)) * (length_fact
    fuselage_length)) * (ecf_fact
    distributed_engine_count_factor_of_propulsion_total_num_engines)) * electrical_mass_scaler

/-- Partial of `electrical_mass` with respect to `electrical_mass_scaler` as set by `ElectricalMass`, aviary/subsystems/mass/flops_based/electrical.py:77 -/
noncomputable def J_electrical_mass__electrical_mass_scaler (fuselage_num_fuselages crewpayload_num_flight_crew crewpayload_design_num_passengers distributed_engine_count_factor_of_propulsion_total_num_engines fuselage_length fuselage_max_width : ℝ) : ℝ :=
  (((fact fuselage_num_fuselages crewpayload_num_flight_crew crewpayload_design_num_passengers)
    * (length_fact fuselage_length)) * (ecf_fact
    distributed_engine_count_factor_of_propulsion_total_num_engines)) * (width_fact
    fuselage_max_width)

theorem d_electrical_mass__fuselage_length (fuselage_num_fuselages crewpayload_num_flight_crew
    crewpayload_design_num_passengers
    distributed_engine_count_factor_of_propulsion_total_num_engines fuselage_length
    fuselage_max_width electrical_mass_scaler : ℝ) (h0 : 0 < fuselage_length) (h1 : 0 <
    fuselage_max_width) (h2 : 0 < fuselage_num_fuselages) (h3 : 0 <
    distributed_engine_count_factor_of_propulsion_total_num_engines) :
    HasDerivAt (fun t => out_electrical_mass fuselage_num_fuselages crewpayload_num_flight_crew crewpayload_design_num_passengers distributed_engine_count_factor_of_propulsion_total_num_engines t fuselage_max_width electrical_mass_scaler) (J_electrical_mass__fuselage_length fuselage_num_fuselages crewpayload_num_flight_crew crewpayload_design_num_passengers distributed_engine_count_factor_of_propulsion_total_num_engines fuselage_length fuselage_max_width electrical_mass_scaler) fuselage_length := by
  have e0 : ∀ x : ℝ, 0 < x → x ^ ((-(3 / 5)) : ℝ) = x ^ ((2 / 5) : ℝ) / x ^ 1 := fun x hx => rpow_down hx 1 (by norm_num)
  simp only [out_electrical_mass, J_electrical_mass__fuselage_length, ecf_fact, width_fact, fact]
  (apply hasDerivAt_of_eq; on_goal 1 => (repeat' comp_step))
  all_goals try comp_side
  all_goals try simp (disch := first | assumption | positivity) only [e0]
  all_goals try simp only [mul_zero, zero_mul, add_zero, zero_add, sub_zero, zero_sub, mul_one, one_mul]
  all_goals try push_cast
  all_goals comp_eq

theorem d_electrical_mass__fuselage_max_width (fuselage_num_fuselages crewpayload_num_flight_crew
    crewpayload_design_num_passengers
    distributed_engine_count_factor_of_propulsion_total_num_engines fuselage_length
    fuselage_max_width electrical_mass_scaler : ℝ) (h0 : 0 < fuselage_length) (h1 : 0 <
    fuselage_max_width) (h2 : 0 < fuselage_num_fuselages) (h3 : 0 <
    distributed_engine_count_factor_of_propulsion_total_num_engines) :
    HasDerivAt (fun t => out_electrical_mass fuselage_num_fuselages crewpayload_num_flight_crew crewpayload_design_num_passengers distributed_engine_count_factor_of_propulsion_total_num_engines fuselage_length t electrical_mass_scaler) (J_electrical_mass__fuselage_max_width fuselage_num_fuselages crewpayload_num_flight_crew crewpayload_design_num_passengers distributed_engine_count_factor_of_propulsion_total_num_engines fuselage_length fuselage_max_width electrical_mass_scaler) fuselage_max_width := by
  have e0 : ∀ x : ℝ, 0 < x → x ^ ((-(43 / 50)) : ℝ) = x ^ ((7 / 50) : ℝ) / x ^ 1 := fun x hx => rpow_down hx 1 (by norm_num)
  simp only [out_electrical_mass, J_electrical_mass__fuselage_max_width, ecf_fact, length_fact, fact]
  (apply hasDerivAt_of_eq; on_goal 1 => (repeat' comp_step))
  all_goals try comp_side
  all_goals try simp (disch := first | assumption | positivity) only [e0]
  all_goals try simp only [mul_zero, zero_mul, add_zero, zero_add, sub_zero, zero_sub, mul_one, one_mul]
  all_goals try push_cast
  all_goals comp_eq

theorem d_electrical_mass__electrical_mass_scaler (fuselage_num_fuselages
    crewpayload_num_flight_crew crewpayload_design_num_passengers
    distributed_engine_count_factor_of_propulsion_total_num_engines fuselage_length
    fuselage_max_width electrical_mass_scaler : ℝ) (h0 : 0 < fuselage_length) (h1 : 0 <
    fuselage_max_width) (h2 : 0 < fuselage_num_fuselages) (h3 : 0 <
    distributed_engine_count_factor_of_propulsion_total_num_engines) :
    HasDerivAt (fun t => out_electrical_mass fuselage_num_fuselages crewpayload_num_flight_crew crewpayload_design_num_passengers distributed_engine_count_factor_of_propulsion_total_num_engines fuselage_length fuselage_max_width t) (J_electrical_mass__electrical_mass_scaler fuselage_num_fuselages crewpayload_num_flight_crew crewpayload_design_num_passengers distributed_engine_count_factor_of_propulsion_total_num_engines fuselage_length fuselage_max_width) electrical_mass_scaler := by
  simp only [out_electrical_mass, J_electrical_mass__electrical_mass_scaler, width_fact, ecf_fact, length_fact, fact]
  (apply hasDerivAt_of_eq; on_goal 1 => (repeat' comp_step))
  all_goals try comp_side
  all_goals try simp only [mul_zero, zero_mul, add_zero, zero_add, sub_zero, zero_sub, mul_one, one_mul]
  all_goals try push_cast
  all_goals comp_eq

/-- Every partial derivative set by `ElectricalMass` is the derivative of its output. -/
theorem partials (fuselage_num_fuselages crewpayload_num_flight_crew
    crewpayload_design_num_passengers
    distributed_engine_count_factor_of_propulsion_total_num_engines fuselage_length
    fuselage_max_width electrical_mass_scaler : ℝ) (h0 : 0 < fuselage_length) (h1 : 0 <
    fuselage_max_width) (h2 : 0 < fuselage_num_fuselages) (h3 : 0 <
    distributed_engine_count_factor_of_propulsion_total_num_engines) :
    HasDerivAt (fun t => out_electrical_mass fuselage_num_fuselages crewpayload_num_flight_crew
      crewpayload_design_num_passengers
      distributed_engine_count_factor_of_propulsion_total_num_engines t fuselage_max_width
      electrical_mass_scaler) (J_electrical_mass__fuselage_length fuselage_num_fuselages
      crewpayload_num_flight_crew crewpayload_design_num_passengers
      distributed_engine_count_factor_of_propulsion_total_num_engines fuselage_length
      fuselage_max_width electrical_mass_scaler) fuselage_length ∧
    HasDerivAt (fun t => out_electrical_mass fuselage_num_fuselages crewpayload_num_flight_crew
      crewpayload_design_num_passengers
      distributed_engine_count_factor_of_propulsion_total_num_engines fuselage_length t
      electrical_mass_scaler) (J_electrical_mass__fuselage_max_width fuselage_num_fuselages
      crewpayload_num_flight_crew crewpayload_design_num_passengers
      distributed_engine_count_factor_of_propulsion_total_num_engines fuselage_length
      fuselage_max_width electrical_mass_scaler) fuselage_max_width ∧
    HasDerivAt (fun t => out_electrical_mass fuselage_num_fuselages crewpayload_num_flight_crew
      crewpayload_design_num_passengers
      distributed_engine_count_factor_of_propulsion_total_num_engines fuselage_length
      fuselage_max_width t) (J_electrical_mass__electrical_mass_scaler fuselage_num_fuselages
      crewpayload_num_flight_crew crewpayload_design_num_passengers
      distributed_engine_count_factor_of_propulsion_total_num_engines fuselage_length
      fuselage_max_width) electrical_mass_scaler :=
  ⟨d_electrical_mass__fuselage_length _ _ _ _ _ _ _ h0 h1 h2 h3,
    d_electrical_mass__fuselage_max_width _ _ _ _ _ _ _ h0 h1 h2 h3,
    d_electrical_mass__electrical_mass_scaler _ _ _ _ _ _ _ h0 h1 h2 h3⟩

example : ∃ fuselage_num_fuselages crewpayload_num_flight_crew crewpayload_design_num_passengers
      distributed_engine_count_factor_of_propulsion_total_num_engines fuselage_length
      fuselage_max_width electrical_mass_scaler : ℝ,
      0 < fuselage_length ∧
      0 < fuselage_max_width ∧
      0 < fuselage_num_fuselages ∧
      0 < distributed_engine_count_factor_of_propulsion_total_num_engines :=
  ⟨1, 0, 0, 1, 1, 1, 0, by comp_example, by comp_example, by comp_example, by comp_example⟩

end Verif.Comp.MassFlopsBasedElectrical.ElectricalMass

