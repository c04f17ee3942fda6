import Verif.Lemmas.CompDeriv

/-! # Partial derivatives of the components of `aviary/subsystems/mass/gasp_based/electrical.py`

One node of a vector component is modelled over the real numbers.  Each option that selects a
branch is fixed, one namespace per choice.  `out_x` is the output `x`, `J_x__y` the entry that
`compute_partials` (or `declare_partials` with `val`) assigns, `d_x__y` the proof that the entry is
the derivative.  Inputs an output does not take as argument have no influence on it. -/

set_option linter.all false

namespace Verif.Comp.MassGaspBasedElectrical.ElectricalMass
open Real

/-- aviary/subsystems/mass/gasp_based/electrical.py:34 -/
noncomputable abbrev electrical_wt (design_gross_mass : ℝ) : ℝ :=
  ((3217 / 100000) * design_gross_mass) - 20

/-- aviary/subsystems/mass/gasp_based/electrical.py:37 -/
noncomputable abbrev electrical_wt_2 (design_gross_mass : ℝ) : ℝ :=
  ((389 / 50000) * design_gross_mass) + 33

/-- aviary/subsystems/mass/gasp_based/electrical.py:39 -/
noncomputable abbrev electrical_wt_3 (crewpayload_design_num_passengers electrical_system_mass_per_passenger : ℝ) : ℝ :=
  (electrical_system_mass_per_passenger * crewpayload_design_num_passengers) + 170

/-- aviary/subsystems/mass/gasp_based/electrical.py:36 -/
noncomputable abbrev electrical_wt_4 (crewpayload_design_num_passengers propulsion_total_num_engines design_gross_mass electrical_system_mass_per_passenger : ℝ) : ℝ :=
  if propulsion_total_num_engines = 1 then (electrical_wt_2 design_gross_mass) else
    (electrical_wt_3 crewpayload_design_num_passengers electrical_system_mass_per_passenger)

/-- aviary/subsystems/mass/gasp_based/electrical.py:33 -/
noncomputable abbrev electrical_wt_5 (crewpayload_design_num_passengers propulsion_total_num_engines design_gross_mass electrical_system_mass_per_passenger : ℝ) : ℝ :=
  if crewpayload_design_num_passengers ≤ 12 then (electrical_wt design_gross_mass) else
    (electrical_wt_4 crewpayload_design_num_passengers propulsion_total_num_engines
    design_gross_mass electrical_system_mass_per_passenger)

/-- aviary/subsystems/mass/gasp_based/electrical.py:51 -/
noncomputable abbrev delectrical_wt_dgross_wt_initial (propulsion_total_num_engines : ℝ) : ℝ :=
  if propulsion_total_num_engines = 1 then (389 / 50000) else 0

/-- aviary/subsystems/mass/gasp_based/electrical.py:51 -/
noncomputable abbrev delectrical_wt_delec_mass_coeff (crewpayload_design_num_passengers propulsion_total_num_engines : ℝ) : ℝ :=
  if propulsion_total_num_engines = 1 then 0 else crewpayload_design_num_passengers

/-- aviary/subsystems/mass/gasp_based/electrical.py:47 -/
noncomputable abbrev delectrical_wt_dgross_wt_initial_2 (crewpayload_design_num_passengers propulsion_total_num_engines : ℝ) : ℝ :=
  if crewpayload_design_num_passengers ≤ 12 then (3217 / 100000) else
    (delectrical_wt_dgross_wt_initial propulsion_total_num_engines)

/-- aviary/subsystems/mass/gasp_based/electrical.py:47 -/
noncomputable abbrev delectrical_wt_delec_mass_coeff_2 (crewpayload_design_num_passengers propulsion_total_num_engines : ℝ) : ℝ :=
  if crewpayload_design_num_passengers ≤ 12 then 0 else (delectrical_wt_delec_mass_coeff
    crewpayload_design_num_passengers propulsion_total_num_engines)

/-- Output `electrical_mass` of `ElectricalMass.compute`, aviary/subsystems/mass/gasp_based/electrical.py:41 -/
noncomputable def out_electrical_mass (crewpayload_design_num_passengers propulsion_total_num_engines design_gross_mass electrical_system_mass_per_passenger : ℝ) : ℝ :=
  electrical_wt_5 crewpayload_design_num_passengers propulsion_total_num_engines
    design_gross_mass electrical_system_mass_per_passenger

/-- Partial of `electrical_mass` with respect to `electrical_system_mass_per_passenger` as set by `ElectricalMass`, aviary/subsystems/mass/gasp_based/electrical.py:58 -/
noncomputable def J_electrical_mass__electrical_system_mass_per_passenger (crewpayload_design_num_passengers propulsion_total_num_engines : ℝ) : ℝ :=
  delectrical_wt_delec_mass_coeff_2 crewpayload_design_num_passengers
    propulsion_total_num_engines

/-- Partial of `electrical_mass` with respect to `design_gross_mass` as set by `ElectricalMass`, aviary/subsystems/mass/gasp_based/electrical.py:62 -/
noncomputable def J_electrical_mass__design_gross_mass (crewpayload_design_num_passengers propulsion_total_num_engines : ℝ) : ℝ :=
  delectrical_wt_dgross_wt_initial_2 crewpayload_design_num_passengers
    propulsion_total_num_engines

theorem d_electrical_mass__design_gross_mass (crewpayload_design_num_passengers
    propulsion_total_num_engines design_gross_mass electrical_system_mass_per_passenger : ℝ)  :
    HasDerivAt (fun t => out_electrical_mass crewpayload_design_num_passengers propulsion_total_num_engines t electrical_system_mass_per_passenger) (J_electrical_mass__design_gross_mass crewpayload_design_num_passengers propulsion_total_num_engines) design_gross_mass := by
  simp only [out_electrical_mass, J_electrical_mass__design_gross_mass, delectrical_wt_dgross_wt_initial_2, delectrical_wt_dgross_wt_initial, electrical_wt_5, electrical_wt_4, electrical_wt_3, electrical_wt_2, electrical_wt]
  try split_ifs
  all_goals (apply hasDerivAt_of_eq; on_goal 1 => (repeat' comp_step))
  all_goals try comp_side
  all_goals try split_ifs
  all_goals try (exfalso; linarith)
  all_goals try simp only [mul_zero, zero_mul, add_zero, zero_add, sub_zero, zero_sub, mul_one, one_mul]
  all_goals try push_cast
  all_goals comp_eq

theorem d_electrical_mass__electrical_system_mass_per_passenger (crewpayload_design_num_passengers
    propulsion_total_num_engines design_gross_mass electrical_system_mass_per_passenger : ℝ)  :
    HasDerivAt (fun t => out_electrical_mass crewpayload_design_num_passengers propulsion_total_num_engines design_gross_mass t) (J_electrical_mass__electrical_system_mass_per_passenger crewpayload_design_num_passengers propulsion_total_num_engines) electrical_system_mass_per_passenger := by
  simp only [out_electrical_mass, J_electrical_mass__electrical_system_mass_per_passenger, delectrical_wt_delec_mass_coeff_2, delectrical_wt_delec_mass_coeff, electrical_wt_5, electrical_wt_4, electrical_wt_3, electrical_wt_2, electrical_wt]
  try split_ifs
  all_goals (apply hasDerivAt_of_eq; on_goal 1 => (repeat' comp_step))
  all_goals try comp_side
  all_goals try split_ifs
  all_goals try (exfalso; linarith)
  all_goals try simp only [mul_zero, zero_mul, add_zero, zero_add, sub_zero, zero_sub, mul_one, one_mul]
  all_goals try push_cast
  all_goals comp_eq

/-- Every partial derivative set by `ElectricalMass` is the derivative of its output. -/
theorem partials (crewpayload_design_num_passengers propulsion_total_num_engines design_gross_mass
    electrical_system_mass_per_passenger : ℝ) :
    HasDerivAt (fun t => out_electrical_mass crewpayload_design_num_passengers
      propulsion_total_num_engines t electrical_system_mass_per_passenger)
      (J_electrical_mass__design_gross_mass crewpayload_design_num_passengers
      propulsion_total_num_engines) design_gross_mass ∧
    HasDerivAt (fun t => out_electrical_mass crewpayload_design_num_passengers
      propulsion_total_num_engines design_gross_mass t)
      (J_electrical_mass__electrical_system_mass_per_passenger crewpayload_design_num_passengers
      propulsion_total_num_engines) electrical_system_mass_per_passenger :=
  ⟨d_electrical_mass__design_gross_mass _ _ _ _,
    d_electrical_mass__electrical_system_mass_per_passenger _ _ _ _⟩

end Verif.Comp.MassGaspBasedElectrical.ElectricalMass

