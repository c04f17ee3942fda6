import Verif.Lemmas.CompDeriv

/-! # Partial derivatives of the components of `aviary/subsystems/mass/flops_based/crew.py`

One node of a vector component is modelled over the real numbers.  Each option that selects a
branch is fixed, one namespace per choice.  `out_x` is the output `x`, `J_x__y` the entry that
`compute_partials` (or `declare_partials` with `val`) assigns, `d_x__y` the proof that the entry is
the derivative.  Inputs an output does not take as argument have no influence on it. -/

set_option linter.all false

namespace Verif.Comp.MassFlopsBasedCrew.CabinCrewMass
open Real

/-- Output `crewpayload_cabin_crew_mass` of `CabinCrewMass.compute`, aviary/subsystems/mass/flops_based/crew.py:39 -/
noncomputable def out_crewpayload_cabin_crew_mass (crewpayload_num_flight_attendants crewpayload_num_galley_crew crewpayload_cabin_crew_mass_scaler : ℝ) : ℝ :=
  ((crewpayload_num_flight_attendants * 155) + (crewpayload_num_galley_crew * 200)) *
    crewpayload_cabin_crew_mass_scaler

/-- Partial of `crewpayload_cabin_crew_mass` with respect to `crewpayload_cabin_crew_mass_scaler` as set by `CabinCrewMass`, aviary/subsystems/mass/flops_based/crew.py:51 -/
noncomputable def J_crewpayload_cabin_crew_mass__crewpayload_cabin_crew_mass_scaler (crewpayload_num_flight_attendants crewpayload_num_galley_crew : ℝ) : ℝ :=
  (crewpayload_num_flight_attendants * 155) + (crewpayload_num_galley_crew * 200)

theorem d_crewpayload_cabin_crew_mass__crewpayload_cabin_crew_mass_scaler
    (crewpayload_num_flight_attendants crewpayload_num_galley_crew
    crewpayload_cabin_crew_mass_scaler : ℝ)  :
    HasDerivAt (fun t => out_crewpayload_cabin_crew_mass crewpayload_num_flight_attendants crewpayload_num_galley_crew t) (J_crewpayload_cabin_crew_mass__crewpayload_cabin_crew_mass_scaler crewpayload_num_flight_attendants crewpayload_num_galley_crew) crewpayload_cabin_crew_mass_scaler := by
  simp only [out_crewpayload_cabin_crew_mass, J_crewpayload_cabin_crew_mass__crewpayload_cabin_crew_mass_scaler]
  (apply hasDerivAt_of_eq; on_goal 1 => (repeat' comp_step))
  all_goals try comp_side
  all_goals try simp only [mul_zero, zero_mul, add_zero, zero_add, sub_zero, zero_sub, mul_one, one_mul]
  all_goals try push_cast
  all_goals comp_eq

/-- Every partial derivative set by `CabinCrewMass` is the derivative of its output. -/
theorem partials (crewpayload_num_flight_attendants crewpayload_num_galley_crew
    crewpayload_cabin_crew_mass_scaler : ℝ) :
    HasDerivAt (fun t => out_crewpayload_cabin_crew_mass crewpayload_num_flight_attendants
      crewpayload_num_galley_crew t)
      (J_crewpayload_cabin_crew_mass__crewpayload_cabin_crew_mass_scaler
      crewpayload_num_flight_attendants crewpayload_num_galley_crew)
      crewpayload_cabin_crew_mass_scaler :=
  d_crewpayload_cabin_crew_mass__crewpayload_cabin_crew_mass_scaler _ _ _

end Verif.Comp.MassFlopsBasedCrew.CabinCrewMass

namespace Verif.Comp.MassFlopsBasedCrew.FlightCrewMass
open Real

/-- Output `crewpayload_flight_crew_mass` of `FlightCrewMass.compute`, aviary/subsystems/mass/flops_based/crew.py:86 -/
noncomputable def out_crewpayload_flight_crew_mass (crewpayload_num_flight_crew crewpayload_flight_crew_mass_scaler : ℝ) : ℝ :=
  (crewpayload_num_flight_crew * 225) * crewpayload_flight_crew_mass_scaler

/-- Partial of `crewpayload_flight_crew_mass` with respect to `crewpayload_flight_crew_mass_scaler` as set by `FlightCrewMass`, aviary/subsystems/mass/flops_based/crew.py:95 -/
noncomputable def J_crewpayload_flight_crew_mass__crewpayload_flight_crew_mass_scaler (crewpayload_num_flight_crew : ℝ) : ℝ :=
  crewpayload_num_flight_crew * 225

theorem d_crewpayload_flight_crew_mass__crewpayload_flight_crew_mass_scaler
    (crewpayload_num_flight_crew crewpayload_flight_crew_mass_scaler : ℝ)  :
    HasDerivAt (fun t => out_crewpayload_flight_crew_mass crewpayload_num_flight_crew t) (J_crewpayload_flight_crew_mass__crewpayload_flight_crew_mass_scaler crewpayload_num_flight_crew) crewpayload_flight_crew_mass_scaler := by
  simp only [out_crewpayload_flight_crew_mass, J_crewpayload_flight_crew_mass__crewpayload_flight_crew_mass_scaler]
  (apply hasDerivAt_of_eq; on_goal 1 => (repeat' comp_step))
  all_goals try comp_side
  all_goals try simp only [mul_zero, zero_mul, add_zero, zero_add, sub_zero, zero_sub, mul_one, one_mul]
  all_goals try push_cast
  all_goals comp_eq

/-- Every partial derivative set by `FlightCrewMass` is the derivative of its output. -/
theorem partials (crewpayload_num_flight_crew crewpayload_flight_crew_mass_scaler : ℝ) :
    HasDerivAt (fun t => out_crewpayload_flight_crew_mass crewpayload_num_flight_crew t)
      (J_crewpayload_flight_crew_mass__crewpayload_flight_crew_mass_scaler
      crewpayload_num_flight_crew) crewpayload_flight_crew_mass_scaler :=
  d_crewpayload_flight_crew_mass__crewpayload_flight_crew_mass_scaler _ _

end Verif.Comp.MassFlopsBasedCrew.FlightCrewMass

