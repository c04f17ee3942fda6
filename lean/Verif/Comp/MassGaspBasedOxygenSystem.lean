import Verif.Lemmas.CompDeriv

/-! # Partial derivatives of the components of `aviary/subsystems/mass/gasp_based/oxygen_system.py`

One node of a vector component is modelled over the real numbers.  Each option that selects a
branch is fixed, one namespace per choice.  `out_x` is the output `x`, `J_x__y` the entry that
`compute_partials` (or `declare_partials` with `val`) assigns, `d_x__y` the proof that the entry is
the derivative.  Inputs an output does not take as argument have no influence on it. -/

set_option linter.all false

namespace Verif.Comp.MassGaspBasedOxygenSystem.OxygenSystemMass_smooth
open Real

/-- aviary/subsystems/mass/gasp_based/oxygen_system.py:37 -/
noncomputable abbrev oxygen_system_wt (design_gross_mass : ℝ) : ℝ :=
  3 * (sigX (design_gross_mass / 3000) 1 (1 / 100))

/-- aviary/subsystems/mass/gasp_based/oxygen_system.py:45 -/
noncomputable abbrev oxygen_system_wt_2 (crewpayload_design_num_passengers : ℝ) : ℝ :=
  if (20 ≤ crewpayload_design_num_passengers ∧ crewpayload_design_num_passengers < 75) then 20
    else 50

/-- aviary/subsystems/mass/gasp_based/oxygen_system.py:43 -/
noncomputable abbrev oxygen_system_wt_3 (crewpayload_design_num_passengers : ℝ) : ℝ :=
  if (9 ≤ crewpayload_design_num_passengers ∧ crewpayload_design_num_passengers < 20) then 10
    else (oxygen_system_wt_2 crewpayload_design_num_passengers)

/-- aviary/subsystems/mass/gasp_based/oxygen_system.py:35 -/
noncomputable abbrev oxygen_system_wt_4 (crewpayload_design_num_passengers design_gross_mass : ℝ) : ℝ :=
  if crewpayload_design_num_passengers < 9 then (oxygen_system_wt design_gross_mass) else
    (oxygen_system_wt_3 crewpayload_design_num_passengers)

/-- aviary/subsystems/mass/gasp_based/oxygen_system.py:60 -/
noncomputable abbrev d_aux_wt_dgross_wt_initial (design_gross_mass : ℝ) : ℝ :=
  (3 * (dsigX (design_gross_mass / 3000) 1 (1 / 100))) / 3000

/-- aviary/subsystems/mass/gasp_based/oxygen_system.py:58 -/
noncomputable abbrev d_aux_wt_dgross_wt_initial_2 (crewpayload_design_num_passengers design_gross_mass : ℝ) : ℝ :=
  if crewpayload_design_num_passengers < 9 then (d_aux_wt_dgross_wt_initial design_gross_mass)
    else 0

/-- Output `oxygensystem_mass` of `OxygenSystemMass.compute`, aviary/subsystems/mass/gasp_based/oxygen_system.py:50 -/
noncomputable def out_oxygensystem_mass (crewpayload_design_num_passengers design_gross_mass : ℝ) : ℝ :=
  oxygen_system_wt_4 crewpayload_design_num_passengers design_gross_mass

/-- Partial of `oxygensystem_mass` with respect to `design_gross_mass` as set by `OxygenSystemMass`, aviary/subsystems/mass/gasp_based/oxygen_system.py:69 -/
noncomputable def J_oxygensystem_mass__design_gross_mass (crewpayload_design_num_passengers design_gross_mass : ℝ) : ℝ :=
  d_aux_wt_dgross_wt_initial_2 crewpayload_design_num_passengers design_gross_mass

theorem d_oxygensystem_mass__design_gross_mass (crewpayload_design_num_passengers
    design_gross_mass : ℝ) (h0 : ((design_gross_mass / 3000) - 1) / (1 / 100) ≠ -320) :
    HasDerivAt (fun t => out_oxygensystem_mass crewpayload_design_num_passengers t) (J_oxygensystem_mass__design_gross_mass crewpayload_design_num_passengers design_gross_mass) design_gross_mass := by
  simp only [out_oxygensystem_mass, J_oxygensystem_mass__design_gross_mass, d_aux_wt_dgross_wt_initial_2, d_aux_wt_dgross_wt_initial, oxygen_system_wt_4, oxygen_system_wt_3, oxygen_system_wt_2, oxygen_system_wt]
  try split_ifs
  all_goals (apply hasDerivAt_of_eq; on_goal 1 => (repeat' comp_step))
  all_goals try comp_side
  all_goals try split_ifs
  all_goals try (exfalso; linarith)
  all_goals try simp only [mul_zero, zero_mul, add_zero, zero_add, sub_zero, zero_sub, mul_one, one_mul]
  all_goals try push_cast
  all_goals comp_eq

/-- Every partial derivative set by `OxygenSystemMass` is the derivative of its output. -/
theorem partials (crewpayload_design_num_passengers design_gross_mass : ℝ) (h0 :
    ((design_gross_mass / 3000) - 1) / (1 / 100) ≠ -320) :
    HasDerivAt (fun t => out_oxygensystem_mass crewpayload_design_num_passengers t)
      (J_oxygensystem_mass__design_gross_mass crewpayload_design_num_passengers design_gross_mass)
      design_gross_mass :=
  d_oxygensystem_mass__design_gross_mass _ _ h0

example : ∃ crewpayload_design_num_passengers design_gross_mass : ℝ,
      ((design_gross_mass / 3000) - 1) / (1 / 100) ≠ -320 :=
  ⟨0, 0, by comp_example⟩

end Verif.Comp.MassGaspBasedOxygenSystem.OxygenSystemMass_smooth

