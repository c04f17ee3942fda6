import Verif.Lemmas.CompDeriv

/-! # Partial derivatives of the components of `aviary/subsystems/mass/flops_based/air_conditioning.py`

One node of a vector component is modelled over the real numbers.  Each option that selects a
branch is fixed, one namespace per choice.  `out_x` is the output `x`, `J_x__y` the entry that
`compute_partials` (or `declare_partials` with `val`) assigns, `d_x__y` the proof that the entry is
the derivative.  Inputs an output does not take as argument have no influence on it. -/

set_option linter.all false

namespace Verif.Comp.MassFlopsBasedAirConditioning.AltAirCondMass
open Real

/-- Output `airconditioning_mass` of `AltAirCondMass.compute`, aviary/subsystems/mass/flops_based/air_conditioning.py:96 -/
noncomputable def out_airconditioning_mass (crewpayload_design_num_passengers airconditioning_mass_scaler : ℝ) : ℝ :=
  (26 * crewpayload_design_num_passengers) * airconditioning_mass_scaler

/-- Partial of `airconditioning_mass` with respect to `airconditioning_mass_scaler` as set by `AltAirCondMass`, aviary/subsystems/mass/flops_based/air_conditioning.py:101 -/
noncomputable def J_airconditioning_mass__airconditioning_mass_scaler (crewpayload_design_num_passengers : ℝ) : ℝ :=
  26 * crewpayload_design_num_passengers

theorem d_airconditioning_mass__airconditioning_mass_scaler (crewpayload_design_num_passengers
    airconditioning_mass_scaler : ℝ)  :
    HasDerivAt (fun t => out_airconditioning_mass crewpayload_design_num_passengers t) (J_airconditioning_mass__airconditioning_mass_scaler crewpayload_design_num_passengers) airconditioning_mass_scaler := by
  simp only [out_airconditioning_mass, J_airconditioning_mass__airconditioning_mass_scaler]
  (apply hasDerivAt_of_eq; on_goal 1 => (repeat' comp_step))
  all_goals try comp_side
  all_goals try simp only [mul_zero, zero_mul, add_zero, zero_add, sub_zero, zero_sub, mul_one, one_mul]
  all_goals try push_cast
  all_goals comp_eq

/-- Every partial derivative set by `AltAirCondMass` is the derivative of its output. -/
theorem partials (crewpayload_design_num_passengers airconditioning_mass_scaler : ℝ) :
    HasDerivAt (fun t => out_airconditioning_mass crewpayload_design_num_passengers t)
      (J_airconditioning_mass__airconditioning_mass_scaler crewpayload_design_num_passengers)
      airconditioning_mass_scaler :=
  d_airconditioning_mass__airconditioning_mass_scaler _ _

end Verif.Comp.MassFlopsBasedAirConditioning.AltAirCondMass

namespace Verif.Comp.MassFlopsBasedAirConditioning.TransportAirCondMass
open Real

/-- aviary/subsystems/mass/flops_based/air_conditioning.py:54 -/
noncomputable def planform_exp (fuselage_planform_area : ℝ) : ℝ :=
  fuselage_planform_area ^ ((3 / 5) : ℝ)

/-- aviary/subsystems/mass/flops_based/air_conditioning.py:55 -/
noncomputable def height_exp (fuselage_max_height : ℝ) : ℝ := fuselage_max_height ^ ((3 / 5) : ℝ)

/-- aviary/subsystems/mass/flops_based/air_conditioning.py:56 -/
noncomputable def pax_exp (crewpayload_design_num_passengers : ℝ) : ℝ :=
  crewpayload_design_num_passengers ^ ((83 / 100) : ℝ)

/-- Output `airconditioning_mass` of `TransportAirCondMass.compute`, aviary/subsystems/mass/flops_based/air_conditioning.py:39 -/
noncomputable def out_airconditioning_mass (crewpayload_design_num_passengers constraints_max_mach airconditioning_mass_scaler avionics_mass fuselage_max_height fuselage_planform_area : ℝ) : ℝ :=
  (((((16 / 5) * ((fuselage_planform_area * fuselage_max_height) ^ ((3 / 5) : ℝ))) + (9 *
    (crewpayload_design_num_passengers ^ ((83 / 100) : ℝ)))) * constraints_max_mach) + ((3 / 40)
    * avionics_mass)) * airconditioning_mass_scaler

/-- Partial of `airconditioning_mass` with respect to `airconditioning_mass_scaler` as set by `TransportAirCondMass`, aviary/subsystems/mass/flops_based/air_conditioning.py:58 -/
noncomputable def J_airconditioning_mass__airconditioning_mass_scaler (crewpayload_design_num_passengers constraints_max_mach avionics_mass fuselage_max_height fuselage_planform_area : ℝ) : ℝ :=
  (((((16 / 5) * (planform_exp fuselage_planform_area)) * (height_exp fuselage_max_height)) + (9
    * (pax_exp crewpayload_design_num_passengers))) * constraints_max_mach) + ((3 / 40) *
    avionics_mass)

/-- Partial of `airconditioning_mass` with respect to `avionics_mass` as set by `TransportAirCondMass`, aviary/subsystems/mass/flops_based/air_conditioning.py:62 -/
noncomputable def J_airconditioning_mass__avionics_mass (airconditioning_mass_scaler : ℝ) : ℝ :=
  (3 / 40) * airconditioning_mass_scaler

/-- Partial of `airconditioning_mass` with respect to `fuselage_max_height` as set by `TransportAirCondMass`, aviary/subsystems/mass/flops_based/air_conditioning.py:64 -/
noncomputable def J_airconditioning_mass__fuselage_max_height (constraints_max_mach airconditioning_mass_scaler fuselage_max_height fuselage_planform_area : ℝ) : ℝ :=
  ((((48 / 25) * (planform_exp fuselage_planform_area)) * (fuselage_max_height ^ ((-(2 / 5)) :
    ℝ))) * constraints_max_mach) * airconditioning_mass_scaler

/-- Partial of `airconditioning_mass` with respect to `fuselage_planform_area` as set by `TransportAirCondMass`, aviary/subsystems/mass/flops_based/air_conditioning.py:68 -/
noncomputable def J_airconditioning_mass__fuselage_planform_area (constraints_max_mach airconditioning_mass_scaler fuselage_max_height fuselage_planform_area : ℝ) : ℝ :=
  ((((48 / 25) * (fuselage_planform_area ^ ((-(2 / 5)) : ℝ))) * (height_exp
    fuselage_max_height)) * constraints_max_mach) * airconditioning_mass_scaler

theorem d_airconditioning_mass__airconditioning_mass_scaler (crewpayload_design_num_passengers
    constraints_max_mach airconditioning_mass_scaler avionics_mass fuselage_max_height
    fuselage_planform_area : ℝ) (h0 : 0 < fuselage_planform_area) (h1 : 0 < fuselage_max_height)
    (h2 : 0 < crewpayload_design_num_passengers) :
    HasDerivAt (fun t => out_airconditioning_mass crewpayload_design_num_passengers constraints_max_mach t avionics_mass fuselage_max_height fuselage_planform_area) (J_airconditioning_mass__airconditioning_mass_scaler crewpayload_design_num_passengers constraints_max_mach avionics_mass fuselage_max_height fuselage_planform_area) airconditioning_mass_scaler := by
  simp only [out_airconditioning_mass, J_airconditioning_mass__airconditioning_mass_scaler, pax_exp, height_exp, planform_exp]
  (apply hasDerivAt_of_eq; on_goal 1 => (repeat' comp_step))
  all_goals try comp_side
  all_goals try simp (disch := first | assumption | positivity) only [mul_rpow, div_rpow]
  all_goals try simp only [mul_zero, zero_mul, add_zero, zero_add, sub_zero, zero_sub, mul_one, one_mul]
  all_goals try push_cast
  all_goals comp_eq

theorem d_airconditioning_mass__avionics_mass (crewpayload_design_num_passengers
    constraints_max_mach airconditioning_mass_scaler avionics_mass fuselage_max_height
    fuselage_planform_area : ℝ) (h0 : 0 < fuselage_planform_area) (h1 : 0 < fuselage_max_height)
    (h2 : 0 < crewpayload_design_num_passengers) :
    HasDerivAt (fun t => out_airconditioning_mass crewpayload_design_num_passengers constraints_max_mach airconditioning_mass_scaler t fuselage_max_height fuselage_planform_area) (J_airconditioning_mass__avionics_mass airconditioning_mass_scaler) avionics_mass := by
  simp only [out_airconditioning_mass, J_airconditioning_mass__avionics_mass]
  (apply hasDerivAt_of_eq; on_goal 1 => (repeat' comp_step))
  all_goals try comp_side
  all_goals try simp only [mul_zero, zero_mul, add_zero, zero_add, sub_zero, zero_sub, mul_one, one_mul]
  all_goals try push_cast
  all_goals comp_eq

theorem d_airconditioning_mass__fuselage_max_height (crewpayload_design_num_passengers
    constraints_max_mach airconditioning_mass_scaler avionics_mass fuselage_max_height
    fuselage_planform_area : ℝ) (h0 : 0 < fuselage_planform_area) (h1 : 0 < fuselage_max_height)
    (h2 : 0 < crewpayload_design_num_passengers) :
    HasDerivAt (fun t => out_airconditioning_mass crewpayload_design_num_passengers constraints_max_mach airconditioning_mass_scaler avionics_mass t fuselage_planform_area) (J_airconditioning_mass__fuselage_max_height constraints_max_mach airconditioning_mass_scaler fuselage_max_height fuselage_planform_area) fuselage_max_height := by
  have e0 : ∀ x : ℝ, 0 < x → x ^ ((-(2 / 5)) : ℝ) = x ^ ((3 / 5) : ℝ) / x ^ 1 := fun x hx => rpow_down hx 1 (by norm_num)
  simp only [out_airconditioning_mass, J_airconditioning_mass__fuselage_max_height, planform_exp]
  (apply hasDerivAt_of_eq; on_goal 1 => (repeat' comp_step))
  all_goals try comp_side
  all_goals try simp (disch := first | assumption | positivity) only [mul_rpow, div_rpow, e0]
  all_goals try simp only [mul_zero, zero_mul, add_zero, zero_add, sub_zero, zero_sub, mul_one, one_mul]
  all_goals try push_cast
  all_goals comp_eq

theorem d_airconditioning_mass__fuselage_planform_area (crewpayload_design_num_passengers
    constraints_max_mach airconditioning_mass_scaler avionics_mass fuselage_max_height
    fuselage_planform_area : ℝ) (h0 : 0 < fuselage_planform_area) (h1 : 0 < fuselage_max_height)
    (h2 : 0 < crewpayload_design_num_passengers) :
    HasDerivAt (fun t => out_airconditioning_mass crewpayload_design_num_passengers constraints_max_mach airconditioning_mass_scaler avionics_mass fuselage_max_height t) (J_airconditioning_mass__fuselage_planform_area constraints_max_mach airconditioning_mass_scaler fuselage_max_height fuselage_planform_area) fuselage_planform_area := by
  have e0 : ∀ x : ℝ, 0 < x → x ^ ((-(2 / 5)) : ℝ) = x ^ ((3 / 5) : ℝ) / x ^ 1 := fun x hx => rpow_down hx 1 (by norm_num)
  simp only [out_airconditioning_mass, J_airconditioning_mass__fuselage_planform_area, height_exp]
  (apply hasDerivAt_of_eq; on_goal 1 => (repeat' comp_step))
  all_goals try comp_side
  all_goals try simp (disch := first | assumption | positivity) only [mul_rpow, div_rpow, e0]
  all_goals try simp only [mul_zero, zero_mul, add_zero, zero_add, sub_zero, zero_sub, mul_one, one_mul]
  all_goals try push_cast
  all_goals comp_eq

/-- Every partial derivative set by `TransportAirCondMass` is the derivative of its output. -/
theorem partials (crewpayload_design_num_passengers constraints_max_mach
    airconditioning_mass_scaler avionics_mass fuselage_max_height fuselage_planform_area : ℝ) (h0
    : 0 < fuselage_planform_area) (h1 : 0 < fuselage_max_height) (h2 : 0 <
    crewpayload_design_num_passengers) :
    HasDerivAt (fun t => out_airconditioning_mass crewpayload_design_num_passengers
      constraints_max_mach t avionics_mass fuselage_max_height fuselage_planform_area)
      (J_airconditioning_mass__airconditioning_mass_scaler crewpayload_design_num_passengers
      constraints_max_mach avionics_mass fuselage_max_height fuselage_planform_area)
      airconditioning_mass_scaler ∧
    HasDerivAt (fun t => out_airconditioning_mass crewpayload_design_num_passengers
      constraints_max_mach airconditioning_mass_scaler t fuselage_max_height
      fuselage_planform_area) (J_airconditioning_mass__avionics_mass airconditioning_mass_scaler)
      avionics_mass ∧
    HasDerivAt (fun t => out_airconditioning_mass crewpayload_design_num_passengers
      constraints_max_mach airconditioning_mass_scaler avionics_mass t fuselage_planform_area)
      (J_airconditioning_mass__fuselage_max_height constraints_max_mach
      airconditioning_mass_scaler fuselage_max_height fuselage_planform_area) fuselage_max_height ∧
    HasDerivAt (fun t => out_airconditioning_mass crewpayload_design_num_passengers
      constraints_max_mach airconditioning_mass_scaler avionics_mass fuselage_max_height t)
      (J_airconditioning_mass__fuselage_planform_area constraints_max_mach
      airconditioning_mass_scaler fuselage_max_height fuselage_planform_area)
      fuselage_planform_area :=
  ⟨d_airconditioning_mass__airconditioning_mass_scaler _ _ _ _ _ _ h0 h1 h2,
    d_airconditioning_mass__avionics_mass _ _ _ _ _ _ h0 h1 h2,
    d_airconditioning_mass__fuselage_max_height _ _ _ _ _ _ h0 h1 h2,
    d_airconditioning_mass__fuselage_planform_area _ _ _ _ _ _ h0 h1 h2⟩

example : ∃ crewpayload_design_num_passengers constraints_max_mach airconditioning_mass_scaler
      avionics_mass fuselage_max_height fuselage_planform_area : ℝ,
      0 < fuselage_planform_area ∧
      0 < fuselage_max_height ∧
      0 < crewpayload_design_num_passengers :=
  ⟨1, 0, 0, 0, 1, 1, by comp_example, by comp_example, by comp_example⟩

end Verif.Comp.MassFlopsBasedAirConditioning.TransportAirCondMass

