import Verif.Lemmas.CompDeriv

/-! # Partial derivatives of the components of `aviary/subsystems/mass/flops_based/avionics.py`

One node of a vector component is modelled over the real numbers.  Each option that selects a
branch is fixed, one namespace per choice.  `out_x` is the output `x`, `J_x__y` the entry that
`compute_partials` (or `declare_partials` with `val`) assigns, `d_x__y` the proof that the entry is
the derivative.  Inputs an output does not take as argument have no influence on it. -/

set_option linter.all false

namespace Verif.Comp.MassFlopsBasedAvionics.TransportAvionicsMass
open Real

/-- aviary/subsystems/mass/flops_based/avionics.py:44 -/
noncomputable def des_range_exp (design_range : ℝ) : ℝ := design_range ^ ((1 / 10) : ℝ)

/-- aviary/subsystems/mass/flops_based/avionics.py:45 -/
noncomputable def crew_exp (crewpayload_num_flight_crew : ℝ) : ℝ :=
  crewpayload_num_flight_crew ^ ((7 / 10) : ℝ)

/-- aviary/subsystems/mass/flops_based/avionics.py:46 -/
noncomputable def planform_exp (fuselage_planform_area : ℝ) : ℝ :=
  fuselage_planform_area ^ ((43 / 100) : ℝ)

/-- Output `avionics_mass` of `TransportAvionicsMass.compute`, aviary/subsystems/mass/flops_based/avionics.py:34 -/
noncomputable def out_avionics_mass (crewpayload_num_flight_crew avionics_mass_scaler fuselage_planform_area design_range : ℝ) : ℝ :=
  ((((79 / 5) * (design_range ^ ((1 / 10) : ℝ))) * (crewpayload_num_flight_crew ^ ((7 / 10) :
    ℝ))) * (fuselage_planform_area ^ ((43 / 100) : ℝ))) * avionics_mass_scaler

/-- Partial of `avionics_mass` with respect to `avionics_mass_scaler` as set by `TransportAvionicsMass`, aviary/subsystems/mass/flops_based/avionics.py:48 -/
noncomputable def J_avionics_mass__avionics_mass_scaler (crewpayload_num_flight_crew fuselage_planform_area design_range : ℝ) : ℝ :=
  (((79 / 5) * (des_range_exp design_range)) * (crew_exp crewpayload_num_flight_crew)) *
    (planform_exp fuselage_planform_area)

/-- Partial of `avionics_mass` with respect to `fuselage_planform_area` as set by `TransportAvionicsMass`, aviary/subsystems/mass/flops_based/avionics.py:52 -/
noncomputable def J_avionics_mass__fuselage_planform_area (crewpayload_num_flight_crew avionics_mass_scaler fuselage_planform_area design_range : ℝ) : ℝ :=
  ((((3397 / 500) * (des_range_exp design_range)) * (crew_exp crewpayload_num_flight_crew)) *
    (fuselage_planform_area ^ ((-(57 / 100)) : ℝ))) * avionics_mass_scaler

/-- Partial of `avionics_mass` with respect to `design_range` as set by `TransportAvionicsMass`, aviary/subsystems/mass/flops_based/avionics.py:56 -/
noncomputable def J_avionics_mass__design_range (crewpayload_num_flight_crew avionics_mass_scaler fuselage_planform_area design_range : ℝ) : ℝ :=
  ((((79 / 50) * (design_range ^ ((-(9 / 10)) : ℝ))) * (crew_exp crewpayload_num_flight_crew)) *
    (planform_exp fuselage_planform_area)) * avionics_mass_scaler

theorem d_avionics_mass__avionics_mass_scaler (crewpayload_num_flight_crew avionics_mass_scaler
    fuselage_planform_area design_range : ℝ) (h0 : 0 < design_range) (h1 : 0 <
    crewpayload_num_flight_crew) (h2 : 0 < fuselage_planform_area) :
    HasDerivAt (fun t => out_avionics_mass crewpayload_num_flight_crew t fuselage_planform_area design_range) (J_avionics_mass__avionics_mass_scaler crewpayload_num_flight_crew fuselage_planform_area design_range) avionics_mass_scaler := by
  simp only [out_avionics_mass, J_avionics_mass__avionics_mass_scaler, planform_exp, crew_exp, des_range_exp]
  (apply hasDerivAt_of_eq; on_goal 1 => (repeat' comp_step))
  all_goals try comp_side
  all_goals try simp only [mul_zero, zero_mul, add_zero, zero_add, sub_zero, zero_sub, mul_one, one_mul]
  all_goals try push_cast
  all_goals comp_eq

theorem d_avionics_mass__fuselage_planform_area (crewpayload_num_flight_crew avionics_mass_scaler
    fuselage_planform_area design_range : ℝ) (h0 : 0 < design_range) (h1 : 0 <
    crewpayload_num_flight_crew) (h2 : 0 < fuselage_planform_area) :
    HasDerivAt (fun t => out_avionics_mass crewpayload_num_flight_crew avionics_mass_scaler t design_range) (J_avionics_mass__fuselage_planform_area crewpayload_num_flight_crew avionics_mass_scaler fuselage_planform_area design_range) fuselage_planform_area := by
  have e0 : ∀ x : ℝ, 0 < x → x ^ ((-(57 / 100)) : ℝ) = x ^ ((43 / 100) : ℝ) / x ^ 1 := fun x hx => rpow_down hx 1 (by norm_num)
  simp only [out_avionics_mass, J_avionics_mass__fuselage_planform_area, crew_exp, des_range_exp]
  (apply hasDerivAt_of_eq; on_goal 1 => (repeat' comp_step))
  all_goals try comp_side
  all_goals try simp (disch := first | assumption | positivity) only [e0]
  all_goals try simp only [mul_zero, zero_mul, add_zero, zero_add, sub_zero, zero_sub, mul_one, one_mul]
  all_goals try push_cast
  all_goals comp_eq

theorem d_avionics_mass__design_range (crewpayload_num_flight_crew avionics_mass_scaler
    fuselage_planform_area design_range : ℝ) (h0 : 0 < design_range) (h1 : 0 <
    crewpayload_num_flight_crew) (h2 : 0 < fuselage_planform_area) :
    HasDerivAt (fun t => out_avionics_mass crewpayload_num_flight_crew avionics_mass_scaler fuselage_planform_area t) (J_avionics_mass__design_range crewpayload_num_flight_crew avionics_mass_scaler fuselage_planform_area design_range) design_range := by
  have e0 : ∀ x : ℝ, 0 < x → x ^ ((-(9 / 10)) : ℝ) = x ^ ((1 / 10) : ℝ) / x ^ 1 := fun x hx => rpow_down hx 1 (by norm_num)
  simp only [out_avionics_mass, J_avionics_mass__design_range, planform_exp, crew_exp]
  (apply hasDerivAt_of_eq; on_goal 1 => (repeat' comp_step))
  all_goals try comp_side
  all_goals try simp (disch := first | assumption | positivity) only [e0]
  all_goals try simp only [mul_zero, zero_mul, add_zero, zero_add, sub_zero, zero_sub, mul_one, one_mul]
  all_goals try push_cast
  all_goals comp_eq

/-- Every partial derivative set by `TransportAvionicsMass` is the derivative of its output. -/
theorem partials (crewpayload_num_flight_crew avionics_mass_scaler fuselage_planform_area
    design_range : ℝ) (h0 : 0 < design_range) (h1 : 0 < crewpayload_num_flight_crew) (h2 : 0 <
    fuselage_planform_area) :
    HasDerivAt (fun t => out_avionics_mass crewpayload_num_flight_crew t fuselage_planform_area
      design_range) (J_avionics_mass__avionics_mass_scaler crewpayload_num_flight_crew
      fuselage_planform_area design_range) avionics_mass_scaler ∧
    HasDerivAt (fun t => out_avionics_mass crewpayload_num_flight_crew avionics_mass_scaler t
      design_range) (J_avionics_mass__fuselage_planform_area crewpayload_num_flight_crew
      avionics_mass_scaler fuselage_planform_area design_range) fuselage_planform_area ∧
    HasDerivAt (fun t => out_avionics_mass crewpayload_num_flight_crew avionics_mass_scaler
      fuselage_planform_area t) (J_avionics_mass__design_range crewpayload_num_flight_crew
      avionics_mass_scaler fuselage_planform_area design_range) design_range :=
  ⟨d_avionics_mass__avionics_mass_scaler _ _ _ _ h0 h1 h2, d_avionics_mass__fuselage_planform_area
    _ _ _ _ h0 h1 h2, d_avionics_mass__design_range _ _ _ _ h0 h1 h2⟩

example : ∃ crewpayload_num_flight_crew avionics_mass_scaler fuselage_planform_area design_range :
      ℝ,
      0 < design_range ∧
      0 < crewpayload_num_flight_crew ∧
      0 < fuselage_planform_area :=
  ⟨1, 0, 1, 1, by comp_example, by comp_example, by comp_example⟩

end Verif.Comp.MassFlopsBasedAvionics.TransportAvionicsMass

