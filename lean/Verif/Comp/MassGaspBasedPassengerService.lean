import Verif.Lemmas.CompDeriv

/-! # Partial derivatives of the components of `aviary/subsystems/mass/gasp_based/passenger_service.py`

One node of a vector component is modelled over the real numbers.  Each option that selects a
branch is fixed, one namespace per choice.  `out_x` is the output `x`, `J_x__y` the entry that
`compute_partials` (or `declare_partials` with `val`) assigns, `d_x__y` the proof that the entry is
the derivative.  Inputs an output does not take as argument have no influence on it.

* `PassengerServiceMass`: not proved: `crewpayload_passenger_service_mass` by
  `crewpayload_passenger_service_mass_per_passenger` -/

set_option linter.all false

namespace Verif.Comp.MassGaspBasedPassengerService.PassengerServiceMass
open Real

/-- aviary/subsystems/mass/gasp_based/passenger_service.py:43 -/
noncomputable abbrev num_lavatories (crewpayload_design_num_passengers : ℝ) : ℝ :=
  if 25 < crewpayload_design_num_passengers then 1 else 0

/-- aviary/subsystems/mass/gasp_based/passenger_service.py:45 -/
noncomputable abbrev num_lavatories_2 (crewpayload_design_num_passengers : ℝ) : ℝ :=
  if 51 ≤ crewpayload_design_num_passengers then 2 else (num_lavatories
    crewpayload_design_num_passengers)

/-- aviary/subsystems/mass/gasp_based/passenger_service.py:47 -/
noncomputable abbrev num_lavatories_3 (crewpayload_design_num_passengers : ℝ) : ℝ :=
  if 101 ≤ crewpayload_design_num_passengers then 3 else (num_lavatories_2
    crewpayload_design_num_passengers)

/-- aviary/subsystems/mass/gasp_based/passenger_service.py:49 -/
noncomputable abbrev num_lavatories_4 (crewpayload_design_num_passengers : ℝ) : ℝ :=
  if 151 ≤ crewpayload_design_num_passengers then 4 else (num_lavatories_3
    crewpayload_design_num_passengers)

/-- aviary/subsystems/mass/gasp_based/passenger_service.py:51 -/
noncomputable abbrev num_lavatories_5 (crewpayload_design_num_passengers : ℝ) : ℝ :=
  if 201 ≤ crewpayload_design_num_passengers then 5 else (num_lavatories_4
    crewpayload_design_num_passengers)

/-- aviary/subsystems/mass/gasp_based/passenger_service.py:53 -/
noncomputable abbrev num_lavatories_6 (crewpayload_design_num_passengers : ℝ) : ℝ :=
  if 251 ≤ crewpayload_design_num_passengers then 6 else (num_lavatories_5
    crewpayload_design_num_passengers)

/-- aviary/subsystems/mass/gasp_based/passenger_service.py:58 -/
noncomputable abbrev service_wt (crewpayload_design_num_passengers crewpayload_passenger_service_mass_per_passenger : ℝ) : ℝ :=
  (crewpayload_passenger_service_mass_per_passenger * crewpayload_design_num_passengers) + (16 *
    (num_lavatories_6 crewpayload_design_num_passengers))

/-- aviary/subsystems/mass/gasp_based/passenger_service.py:57 -/
noncomputable abbrev service_wt_2 (crewpayload_design_num_passengers crewpayload_passenger_service_mass_per_passenger : ℝ) : ℝ :=
  if 9 < crewpayload_design_num_passengers then (service_wt crewpayload_design_num_passengers
    crewpayload_passenger_service_mass_per_passenger) else 0

/-- aviary/subsystems/mass/gasp_based/passenger_service.py:62 -/
noncomputable abbrev water_wt (crewpayload_design_num_passengers crewpayload_water_mass_per_occupant : ℝ) : ℝ :=
  crewpayload_water_mass_per_occupant * crewpayload_design_num_passengers

/-- aviary/subsystems/mass/gasp_based/passenger_service.py:61 -/
noncomputable abbrev water_wt_2 (crewpayload_design_num_passengers crewpayload_water_mass_per_occupant : ℝ) : ℝ :=
  if 19 < crewpayload_design_num_passengers then (water_wt crewpayload_design_num_passengers
    crewpayload_water_mass_per_occupant) else 0

/-- aviary/subsystems/mass/gasp_based/passenger_service.py:66 -/
noncomputable abbrev catering_wt (crewpayload_design_num_passengers crewpayload_catering_items_mass_per_passenger : ℝ) : ℝ :=
  crewpayload_catering_items_mass_per_passenger * crewpayload_design_num_passengers

/-- aviary/subsystems/mass/gasp_based/passenger_service.py:65 -/
noncomputable abbrev catering_wt_2 (crewpayload_design_num_passengers crewpayload_catering_items_mass_per_passenger : ℝ) : ℝ :=
  if 19 < crewpayload_design_num_passengers then (catering_wt crewpayload_design_num_passengers
    crewpayload_catering_items_mass_per_passenger) else 0

/-- Output `crewpayload_passenger_service_mass` of `PassengerServiceMass.compute`, aviary/subsystems/mass/gasp_based/passenger_service.py:68 -/
noncomputable def out_crewpayload_passenger_service_mass (crewpayload_design_num_passengers crewpayload_passenger_service_mass_per_passenger crewpayload_water_mass_per_occupant crewpayload_catering_items_mass_per_passenger : ℝ) : ℝ :=
  ((service_wt_2 crewpayload_design_num_passengers
    crewpayload_passenger_service_mass_per_passenger) + (water_wt_2
    crewpayload_design_num_passengers crewpayload_water_mass_per_occupant)) + (catering_wt_2
    crewpayload_design_num_passengers crewpayload_catering_items_mass_per_passenger)

/-- Partial of `crewpayload_passenger_service_mass` with respect to `crewpayload_passenger_service_mass_per_passenger` as set by `PassengerServiceMass`, aviary/subsystems/mass/gasp_based/passenger_service.py:90 -/
noncomputable def J_crewpayload_passenger_service_mass__crewpayload_passenger_service_mass_per_passenger (crewpayload_design_num_passengers : ℝ) : ℝ :=
  if 19 < crewpayload_design_num_passengers then crewpayload_design_num_passengers else 0

/-- Partial of `crewpayload_passenger_service_mass` with respect to `crewpayload_water_mass_per_occupant` as set by `PassengerServiceMass`, aviary/subsystems/mass/gasp_based/passenger_service.py:95 -/
noncomputable def J_crewpayload_passenger_service_mass__crewpayload_water_mass_per_occupant (crewpayload_design_num_passengers : ℝ) : ℝ :=
  if 19 < crewpayload_design_num_passengers then crewpayload_design_num_passengers else 0

/-- Partial of `crewpayload_passenger_service_mass` with respect to `crewpayload_catering_items_mass_per_passenger` as set by `PassengerServiceMass`, aviary/subsystems/mass/gasp_based/passenger_service.py:100 -/
noncomputable def J_crewpayload_passenger_service_mass__crewpayload_catering_items_mass_per_passenger (crewpayload_design_num_passengers : ℝ) : ℝ :=
  if 19 < crewpayload_design_num_passengers then crewpayload_design_num_passengers else 0

theorem d_crewpayload_passenger_service_mass__crewpayload_water_mass_per_occupant
    (crewpayload_design_num_passengers crewpayload_passenger_service_mass_per_passenger
    crewpayload_water_mass_per_occupant crewpayload_catering_items_mass_per_passenger : ℝ)  :
    HasDerivAt (fun t => out_crewpayload_passenger_service_mass crewpayload_design_num_passengers crewpayload_passenger_service_mass_per_passenger t crewpayload_catering_items_mass_per_passenger) (J_crewpayload_passenger_service_mass__crewpayload_water_mass_per_occupant crewpayload_design_num_passengers) crewpayload_water_mass_per_occupant := by
  simp only [out_crewpayload_passenger_service_mass, J_crewpayload_passenger_service_mass__crewpayload_water_mass_per_occupant, catering_wt_2, catering_wt, water_wt_2, water_wt, service_wt_2, service_wt, num_lavatories_6, num_lavatories_5, num_lavatories_4, num_lavatories_3, num_lavatories_2, num_lavatories]
  try split_ifs
  all_goals (apply hasDerivAt_of_eq; on_goal 1 => (repeat' comp_step))
  all_goals try comp_side
  all_goals try split_ifs
  all_goals try (exfalso; linarith)
  all_goals try simp only [mul_zero, zero_mul, add_zero, zero_add, sub_zero, zero_sub, mul_one, one_mul]
  all_goals try push_cast
  all_goals comp_eq

theorem d_crewpayload_passenger_service_mass__crewpayload_catering_items_mass_per_passenger
    (crewpayload_design_num_passengers crewpayload_passenger_service_mass_per_passenger
    crewpayload_water_mass_per_occupant crewpayload_catering_items_mass_per_passenger : ℝ)  :
    HasDerivAt (fun t => out_crewpayload_passenger_service_mass crewpayload_design_num_passengers crewpayload_passenger_service_mass_per_passenger crewpayload_water_mass_per_occupant t) (J_crewpayload_passenger_service_mass__crewpayload_catering_items_mass_per_passenger crewpayload_design_num_passengers) crewpayload_catering_items_mass_per_passenger := by
  simp only [out_crewpayload_passenger_service_mass, J_crewpayload_passenger_service_mass__crewpayload_catering_items_mass_per_passenger, catering_wt_2, catering_wt, water_wt_2, water_wt, service_wt_2, service_wt, num_lavatories_6, num_lavatories_5, num_lavatories_4, num_lavatories_3, num_lavatories_2, num_lavatories]
  try split_ifs
  all_goals (apply hasDerivAt_of_eq; on_goal 1 => (repeat' comp_step))
  all_goals try comp_side
  all_goals try split_ifs
  all_goals try (exfalso; linarith)
  all_goals try simp only [mul_zero, zero_mul, add_zero, zero_add, sub_zero, zero_sub, mul_one, one_mul]
  all_goals try push_cast
  all_goals comp_eq

/-- Partial derivatives of `PassengerServiceMass` that are proved correct (the rest is listed in the header). -/
theorem partials_partial (crewpayload_design_num_passengers
    crewpayload_passenger_service_mass_per_passenger crewpayload_water_mass_per_occupant
    crewpayload_catering_items_mass_per_passenger : ℝ) :
    HasDerivAt (fun t => out_crewpayload_passenger_service_mass crewpayload_design_num_passengers
      crewpayload_passenger_service_mass_per_passenger t
      crewpayload_catering_items_mass_per_passenger)
      (J_crewpayload_passenger_service_mass__crewpayload_water_mass_per_occupant
      crewpayload_design_num_passengers) crewpayload_water_mass_per_occupant ∧
    HasDerivAt (fun t => out_crewpayload_passenger_service_mass crewpayload_design_num_passengers
      crewpayload_passenger_service_mass_per_passenger crewpayload_water_mass_per_occupant t)
      (J_crewpayload_passenger_service_mass__crewpayload_catering_items_mass_per_passenger
      crewpayload_design_num_passengers) crewpayload_catering_items_mass_per_passenger :=
  ⟨d_crewpayload_passenger_service_mass__crewpayload_water_mass_per_occupant _ _ _ _,
    d_crewpayload_passenger_service_mass__crewpayload_catering_items_mass_per_passenger _ _ _ _⟩

end Verif.Comp.MassGaspBasedPassengerService.PassengerServiceMass

