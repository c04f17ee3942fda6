import Verif.Lemmas.CompDeriv

/-! # Partial derivatives of the components of `aviary/subsystems/mass/gasp_based/crew.py`

One node of a vector component is modelled over the real numbers.  Each option that selects a
branch is fixed, one namespace per choice.  `out_x` is the output `x`, `J_x__y` the entry that
`compute_partials` (or `declare_partials` with `val`) assigns, `d_x__y` the proof that the entry is
the derivative.  Inputs an output does not take as argument have no influence on it. -/

set_option linter.all false

namespace Verif.Comp.MassGaspBasedCrew.CabinCrewMass
open Real

/-- aviary/subsystems/mass/gasp_based/crew.py:34 -/
noncomputable abbrev num_flight_attendants (crewpayload_design_num_passengers : ℝ) : ℝ :=
  if 20 ≤ crewpayload_design_num_passengers then 1 else 0

/-- aviary/subsystems/mass/gasp_based/crew.py:36 -/
noncomputable abbrev num_flight_attendants_2 (crewpayload_design_num_passengers : ℝ) : ℝ :=
  if 51 ≤ crewpayload_design_num_passengers then 2 else (num_flight_attendants
    crewpayload_design_num_passengers)

/-- aviary/subsystems/mass/gasp_based/crew.py:38 -/
noncomputable abbrev num_flight_attendants_3 (crewpayload_design_num_passengers : ℝ) : ℝ :=
  if 101 ≤ crewpayload_design_num_passengers then 3 else (num_flight_attendants_2
    crewpayload_design_num_passengers)

/-- aviary/subsystems/mass/gasp_based/crew.py:40 -/
noncomputable abbrev num_flight_attendants_4 (crewpayload_design_num_passengers : ℝ) : ℝ :=
  if 151 ≤ crewpayload_design_num_passengers then 4 else (num_flight_attendants_3
    crewpayload_design_num_passengers)

/-- aviary/subsystems/mass/gasp_based/crew.py:42 -/
noncomputable abbrev num_flight_attendants_5 (crewpayload_design_num_passengers : ℝ) : ℝ :=
  if 201 ≤ crewpayload_design_num_passengers then 5 else (num_flight_attendants_4
    crewpayload_design_num_passengers)

/-- aviary/subsystems/mass/gasp_based/crew.py:44 -/
noncomputable abbrev num_flight_attendants_6 (crewpayload_design_num_passengers : ℝ) : ℝ :=
  if 251 ≤ crewpayload_design_num_passengers then 6 else (num_flight_attendants_5
    crewpayload_design_num_passengers)

/-- aviary/subsystems/mass/gasp_based/crew.py:56 -/
noncomputable abbrev flight_attendant_wt (crewpayload_design_num_passengers : ℝ) : ℝ :=
  177 * (num_flight_attendants_6 crewpayload_design_num_passengers)

/-- aviary/subsystems/mass/gasp_based/crew.py:59 -/
noncomputable abbrev non_crew_bag_wt (crewpayload_design_num_passengers : ℝ) : ℝ :=
  20 * (num_flight_attendants_6 crewpayload_design_num_passengers)

/-- aviary/subsystems/mass/gasp_based/crew.py:61 -/
noncomputable abbrev non_crew_bag_wt_2 (crewpayload_design_num_passengers : ℝ) : ℝ :=
  (10 * (num_flight_attendants_6 crewpayload_design_num_passengers)) + 25

/-- aviary/subsystems/mass/gasp_based/crew.py:58 -/
noncomputable abbrev non_crew_bag_wt_3 (crewpayload_design_num_passengers : ℝ) : ℝ :=
  if 40 ≤ crewpayload_design_num_passengers then (non_crew_bag_wt
    crewpayload_design_num_passengers) else (non_crew_bag_wt_2
    crewpayload_design_num_passengers)

/-- aviary/subsystems/mass/gasp_based/crew.py:65 -/
noncomputable abbrev water_mass (crewpayload_design_num_passengers crewpayload_water_mass_per_occupant : ℝ) : ℝ :=
  crewpayload_water_mass_per_occupant * (num_flight_attendants_6
    crewpayload_design_num_passengers)

/-- aviary/subsystems/mass/gasp_based/crew.py:64 -/
noncomputable abbrev water_mass_2 (crewpayload_design_num_passengers crewpayload_water_mass_per_occupant : ℝ) : ℝ :=
  if 19 < crewpayload_design_num_passengers then (water_mass crewpayload_design_num_passengers
    crewpayload_water_mass_per_occupant) else 0

/-- Output `crewpayload_cabin_crew_mass` of `CabinCrewMass.compute`, aviary/subsystems/mass/gasp_based/crew.py:67 -/
noncomputable def out_crewpayload_cabin_crew_mass (crewpayload_design_num_passengers crewpayload_water_mass_per_occupant : ℝ) : ℝ :=
  ((flight_attendant_wt crewpayload_design_num_passengers) + (non_crew_bag_wt_3
    crewpayload_design_num_passengers)) + (water_mass_2 crewpayload_design_num_passengers
    crewpayload_water_mass_per_occupant)

/-- Partial of `crewpayload_cabin_crew_mass` with respect to `crewpayload_water_mass_per_occupant` as set by `CabinCrewMass`, aviary/subsystems/mass/gasp_based/crew.py:93 -/
noncomputable def J_crewpayload_cabin_crew_mass__crewpayload_water_mass_per_occupant (crewpayload_design_num_passengers : ℝ) : ℝ :=
  if 19 < crewpayload_design_num_passengers then (num_flight_attendants_6
    crewpayload_design_num_passengers) else 0

theorem d_crewpayload_cabin_crew_mass__crewpayload_water_mass_per_occupant
    (crewpayload_design_num_passengers crewpayload_water_mass_per_occupant : ℝ)  :
    HasDerivAt (fun t => out_crewpayload_cabin_crew_mass crewpayload_design_num_passengers t) (J_crewpayload_cabin_crew_mass__crewpayload_water_mass_per_occupant crewpayload_design_num_passengers) crewpayload_water_mass_per_occupant := by
  simp only [out_crewpayload_cabin_crew_mass, J_crewpayload_cabin_crew_mass__crewpayload_water_mass_per_occupant, water_mass_2, water_mass, non_crew_bag_wt_3, non_crew_bag_wt_2, non_crew_bag_wt, flight_attendant_wt, num_flight_attendants_6, num_flight_attendants_5, num_flight_attendants_4, num_flight_attendants_3, num_flight_attendants_2, num_flight_attendants]
  try split_ifs
  all_goals (apply hasDerivAt_of_eq; on_goal 1 => (repeat' comp_step))
  all_goals try comp_side
  all_goals try split_ifs
  all_goals try (exfalso; linarith)
  all_goals try simp only [mul_zero, zero_mul, add_zero, zero_add, sub_zero, zero_sub, mul_one, one_mul]
  all_goals try push_cast
  all_goals comp_eq

/-- Every partial derivative set by `CabinCrewMass` is the derivative of its output. -/
theorem partials (crewpayload_design_num_passengers crewpayload_water_mass_per_occupant : ℝ) :
    HasDerivAt (fun t => out_crewpayload_cabin_crew_mass crewpayload_design_num_passengers t)
      (J_crewpayload_cabin_crew_mass__crewpayload_water_mass_per_occupant
      crewpayload_design_num_passengers) crewpayload_water_mass_per_occupant :=
  d_crewpayload_cabin_crew_mass__crewpayload_water_mass_per_occupant _ _

end Verif.Comp.MassGaspBasedCrew.CabinCrewMass

namespace Verif.Comp.MassGaspBasedCrew.FlightCrewMass_turbojet
open Real

/-- aviary/subsystems/mass/gasp_based/crew.py:125 -/
noncomputable abbrev num_pilots (crewpayload_design_num_passengers : ℝ) : ℝ :=
  if 9 < crewpayload_design_num_passengers then 2 else 1

/-- aviary/subsystems/mass/gasp_based/crew.py:127 -/
noncomputable abbrev num_pilots_2 (crewpayload_design_num_passengers : ℝ) : ℝ :=
  if 5 < crewpayload_design_num_passengers then 2 else (num_pilots
    crewpayload_design_num_passengers)

/-- aviary/subsystems/mass/gasp_based/crew.py:129 -/
noncomputable abbrev num_pilots_3 (crewpayload_design_num_passengers : ℝ) : ℝ :=
  if 351 ≤ crewpayload_design_num_passengers then 3 else (num_pilots_2
    crewpayload_design_num_passengers)

/-- aviary/subsystems/mass/gasp_based/crew.py:142 -/
noncomputable abbrev pilot_wt (crewpayload_design_num_passengers : ℝ) : ℝ :=
  198 * (num_pilots_3 crewpayload_design_num_passengers)

/-- aviary/subsystems/mass/gasp_based/crew.py:145 -/
noncomputable abbrev crew_bag_wt (crewpayload_design_num_passengers : ℝ) : ℝ :=
  45 * (num_pilots_3 crewpayload_design_num_passengers)

/-- aviary/subsystems/mass/gasp_based/crew.py:147 -/
noncomputable abbrev crew_bag_wt_2 (crewpayload_design_num_passengers : ℝ) : ℝ :=
  25 * (num_pilots_3 crewpayload_design_num_passengers)

/-- aviary/subsystems/mass/gasp_based/crew.py:149 -/
noncomputable abbrev crew_bag_wt_3 (crewpayload_design_num_passengers : ℝ) : ℝ :=
  (10 * (num_pilots_3 crewpayload_design_num_passengers)) + 25

/-- aviary/subsystems/mass/gasp_based/crew.py:146 -/
noncomputable abbrev crew_bag_wt_4 (crewpayload_design_num_passengers : ℝ) : ℝ :=
  if crewpayload_design_num_passengers < 20 then (crew_bag_wt_2
    crewpayload_design_num_passengers) else (crew_bag_wt_3 crewpayload_design_num_passengers)

/-- aviary/subsystems/mass/gasp_based/crew.py:144 -/
noncomputable abbrev crew_bag_wt_5 (crewpayload_design_num_passengers : ℝ) : ℝ :=
  if 40 ≤ crewpayload_design_num_passengers then (crew_bag_wt crewpayload_design_num_passengers)
    else (crew_bag_wt_4 crewpayload_design_num_passengers)

/-- aviary/subsystems/mass/gasp_based/crew.py:153 -/
noncomputable abbrev water_mass (crewpayload_design_num_passengers crewpayload_water_mass_per_occupant : ℝ) : ℝ :=
  crewpayload_water_mass_per_occupant * (num_pilots_3 crewpayload_design_num_passengers)

/-- aviary/subsystems/mass/gasp_based/crew.py:152 -/
noncomputable abbrev water_mass_2 (crewpayload_design_num_passengers crewpayload_water_mass_per_occupant : ℝ) : ℝ :=
  if 19 < crewpayload_design_num_passengers then (water_mass crewpayload_design_num_passengers
    crewpayload_water_mass_per_occupant) else 0

/-- Output `crewpayload_flight_crew_mass` of `FlightCrewMass.compute`, aviary/subsystems/mass/gasp_based/crew.py:155 -/
noncomputable def out_crewpayload_flight_crew_mass (crewpayload_design_num_passengers crewpayload_water_mass_per_occupant : ℝ) : ℝ :=
  ((pilot_wt crewpayload_design_num_passengers) + (crew_bag_wt_5
    crewpayload_design_num_passengers)) + (water_mass_2 crewpayload_design_num_passengers
    crewpayload_water_mass_per_occupant)

/-- Partial of `crewpayload_flight_crew_mass` with respect to `crewpayload_water_mass_per_occupant` as set by `FlightCrewMass`, aviary/subsystems/mass/gasp_based/crew.py:176 -/
noncomputable def J_crewpayload_flight_crew_mass__crewpayload_water_mass_per_occupant (crewpayload_design_num_passengers : ℝ) : ℝ :=
  if 19 < crewpayload_design_num_passengers then (num_pilots_3
    crewpayload_design_num_passengers) else 0

theorem d_crewpayload_flight_crew_mass__crewpayload_water_mass_per_occupant
    (crewpayload_design_num_passengers crewpayload_water_mass_per_occupant : ℝ)  :
    HasDerivAt (fun t => out_crewpayload_flight_crew_mass crewpayload_design_num_passengers t) (J_crewpayload_flight_crew_mass__crewpayload_water_mass_per_occupant crewpayload_design_num_passengers) crewpayload_water_mass_per_occupant := by
  simp only [out_crewpayload_flight_crew_mass, J_crewpayload_flight_crew_mass__crewpayload_water_mass_per_occupant, water_mass_2, water_mass, crew_bag_wt_5, crew_bag_wt_4, crew_bag_wt_3, crew_bag_wt_2, crew_bag_wt, pilot_wt, num_pilots_3, num_pilots_2, num_pilots]
  try split_ifs
  all_goals (apply hasDerivAt_of_eq; on_goal 1 => (repeat' comp_step))
  all_goals try comp_side
  all_goals try split_ifs
  all_goals try (exfalso; linarith)
  all_goals try simp only [mul_zero, zero_mul, add_zero, zero_add, sub_zero, zero_sub, mul_one, one_mul]
  all_goals try push_cast
  all_goals comp_eq

/-- Every partial derivative set by `FlightCrewMass` is the derivative of its output. -/
theorem partials (crewpayload_design_num_passengers crewpayload_water_mass_per_occupant : ℝ) :
    HasDerivAt (fun t => out_crewpayload_flight_crew_mass crewpayload_design_num_passengers t)
      (J_crewpayload_flight_crew_mass__crewpayload_water_mass_per_occupant
      crewpayload_design_num_passengers) crewpayload_water_mass_per_occupant :=
  d_crewpayload_flight_crew_mass__crewpayload_water_mass_per_occupant _ _

end Verif.Comp.MassGaspBasedCrew.FlightCrewMass_turbojet

namespace Verif.Comp.MassGaspBasedCrew.FlightCrewMass_otherenginetype
open Real

/-- aviary/subsystems/mass/gasp_based/crew.py:125 -/
noncomputable abbrev num_pilots (crewpayload_design_num_passengers : ℝ) : ℝ :=
  if 9 < crewpayload_design_num_passengers then 2 else 1

/-- aviary/subsystems/mass/gasp_based/crew.py:129 -/
noncomputable abbrev num_pilots_2 (crewpayload_design_num_passengers : ℝ) : ℝ :=
  if 351 ≤ crewpayload_design_num_passengers then 3 else (num_pilots
    crewpayload_design_num_passengers)

/-- aviary/subsystems/mass/gasp_based/crew.py:142 -/
noncomputable abbrev pilot_wt (crewpayload_design_num_passengers : ℝ) : ℝ :=
  198 * (num_pilots_2 crewpayload_design_num_passengers)

/-- aviary/subsystems/mass/gasp_based/crew.py:145 -/
noncomputable abbrev crew_bag_wt (crewpayload_design_num_passengers : ℝ) : ℝ :=
  45 * (num_pilots_2 crewpayload_design_num_passengers)

/-- aviary/subsystems/mass/gasp_based/crew.py:147 -/
noncomputable abbrev crew_bag_wt_2 (crewpayload_design_num_passengers : ℝ) : ℝ :=
  25 * (num_pilots_2 crewpayload_design_num_passengers)

/-- aviary/subsystems/mass/gasp_based/crew.py:149 -/
noncomputable abbrev crew_bag_wt_3 (crewpayload_design_num_passengers : ℝ) : ℝ :=
  (10 * (num_pilots_2 crewpayload_design_num_passengers)) + 25

/-- aviary/subsystems/mass/gasp_based/crew.py:146 -/
noncomputable abbrev crew_bag_wt_4 (crewpayload_design_num_passengers : ℝ) : ℝ :=
  if crewpayload_design_num_passengers < 20 then (crew_bag_wt_2
    crewpayload_design_num_passengers) else (crew_bag_wt_3 crewpayload_design_num_passengers)

/-- aviary/subsystems/mass/gasp_based/crew.py:144 -/
noncomputable abbrev crew_bag_wt_5 (crewpayload_design_num_passengers : ℝ) : ℝ :=
  if 40 ≤ crewpayload_design_num_passengers then (crew_bag_wt crewpayload_design_num_passengers)
    else (crew_bag_wt_4 crewpayload_design_num_passengers)

/-- aviary/subsystems/mass/gasp_based/crew.py:153 -/
noncomputable abbrev water_mass (crewpayload_design_num_passengers crewpayload_water_mass_per_occupant : ℝ) : ℝ :=
  crewpayload_water_mass_per_occupant * (num_pilots_2 crewpayload_design_num_passengers)

/-- aviary/subsystems/mass/gasp_based/crew.py:152 -/
noncomputable abbrev water_mass_2 (crewpayload_design_num_passengers crewpayload_water_mass_per_occupant : ℝ) : ℝ :=
  if 19 < crewpayload_design_num_passengers then (water_mass crewpayload_design_num_passengers
    crewpayload_water_mass_per_occupant) else 0

/-- Output `crewpayload_flight_crew_mass` of `FlightCrewMass.compute`, aviary/subsystems/mass/gasp_based/crew.py:155 -/
noncomputable def out_crewpayload_flight_crew_mass (crewpayload_design_num_passengers crewpayload_water_mass_per_occupant : ℝ) : ℝ :=
  ((pilot_wt crewpayload_design_num_passengers) + (crew_bag_wt_5
    crewpayload_design_num_passengers)) + (water_mass_2 crewpayload_design_num_passengers
    crewpayload_water_mass_per_occupant)

/-- Partial of `crewpayload_flight_crew_mass` with respect to `crewpayload_water_mass_per_occupant` as set by `FlightCrewMass`, aviary/subsystems/mass/gasp_based/crew.py:176 -/
noncomputable def J_crewpayload_flight_crew_mass__crewpayload_water_mass_per_occupant (crewpayload_design_num_passengers : ℝ) : ℝ :=
  if 19 < crewpayload_design_num_passengers then (num_pilots_2
    crewpayload_design_num_passengers) else 0

theorem d_crewpayload_flight_crew_mass__crewpayload_water_mass_per_occupant
    (crewpayload_design_num_passengers crewpayload_water_mass_per_occupant : ℝ)  :
    HasDerivAt (fun t => out_crewpayload_flight_crew_mass crewpayload_design_num_passengers t) (J_crewpayload_flight_crew_mass__crewpayload_water_mass_per_occupant crewpayload_design_num_passengers) crewpayload_water_mass_per_occupant := by
  simp only [out_crewpayload_flight_crew_mass, J_crewpayload_flight_crew_mass__crewpayload_water_mass_per_occupant, water_mass_2, water_mass, crew_bag_wt_5, crew_bag_wt_4, crew_bag_wt_3, crew_bag_wt_2, crew_bag_wt, pilot_wt, num_pilots_2, num_pilots]
  try split_ifs
  all_goals (apply hasDerivAt_of_eq; on_goal 1 => (repeat' comp_step))
  all_goals try comp_side
  all_goals try split_ifs
  all_goals try (exfalso; linarith)
  all_goals try simp only [mul_zero, zero_mul, add_zero, zero_add, sub_zero, zero_sub, mul_one, one_mul]
  all_goals try push_cast
  all_goals comp_eq

/-- Every partial derivative set by `FlightCrewMass` is the derivative of its output. -/
theorem partials (crewpayload_design_num_passengers crewpayload_water_mass_per_occupant : ℝ) :
    HasDerivAt (fun t => out_crewpayload_flight_crew_mass crewpayload_design_num_passengers t)
      (J_crewpayload_flight_crew_mass__crewpayload_water_mass_per_occupant
      crewpayload_design_num_passengers) crewpayload_water_mass_per_occupant :=
  d_crewpayload_flight_crew_mass__crewpayload_water_mass_per_occupant _ _

end Verif.Comp.MassGaspBasedCrew.FlightCrewMass_otherenginetype

