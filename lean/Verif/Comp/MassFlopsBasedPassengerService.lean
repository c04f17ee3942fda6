import Verif.Lemmas.CompDeriv

/-! # Partial derivatives of the components of `aviary/subsystems/mass/flops_based/passenger_service.py`

One node of a vector component is modelled over the real numbers.  Each option that selects a
branch is fixed, one namespace per choice.  `out_x` is the output `x`, `J_x__y` the entry that
`compute_partials` (or `declare_partials` with `val`) assigns, `d_x__y` the proof that the entry is
the derivative.  Inputs an output does not take as argument have no influence on it. -/

set_option linter.all false

namespace Verif.Comp.MassFlopsBasedPassengerService.AltPassengerServiceMass
open Real

/-- aviary/subsystems/mass/flops_based/passenger_service.py:109 -/
noncomputable def passenger_service_weight (crewpayload_design_num_passengers crewpayload_passenger_service_mass_scaler : ℝ) : ℝ :=
  ((317 / 10) * crewpayload_design_num_passengers) * crewpayload_passenger_service_mass_scaler

/-- Output `crewpayload_passenger_service_mass` of `AltPassengerServiceMass.compute`, aviary/subsystems/mass/flops_based/passenger_service.py:111 -/
noncomputable def out_crewpayload_passenger_service_mass (crewpayload_design_num_passengers crewpayload_passenger_service_mass_scaler : ℝ) : ℝ :=
  passenger_service_weight crewpayload_design_num_passengers
    crewpayload_passenger_service_mass_scaler

/-- Partial of `crewpayload_passenger_service_mass` with respect to `crewpayload_passenger_service_mass_scaler` as set by `AltPassengerServiceMass`, aviary/subsystems/mass/flops_based/passenger_service.py:118 -/
noncomputable def J_crewpayload_passenger_service_mass__crewpayload_passenger_service_mass_scaler (crewpayload_design_num_passengers : ℝ) : ℝ :=
  (317 / 10) * crewpayload_design_num_passengers

theorem d_crewpayload_passenger_service_mass__crewpayload_passenger_service_mass_scaler
    (crewpayload_design_num_passengers crewpayload_passenger_service_mass_scaler : ℝ)  :
    HasDerivAt (fun t => out_crewpayload_passenger_service_mass crewpayload_design_num_passengers t) (J_crewpayload_passenger_service_mass__crewpayload_passenger_service_mass_scaler crewpayload_design_num_passengers) crewpayload_passenger_service_mass_scaler := by
  simp only [out_crewpayload_passenger_service_mass, J_crewpayload_passenger_service_mass__crewpayload_passenger_service_mass_scaler, passenger_service_weight]
  (apply hasDerivAt_of_eq; on_goal 1 => (repeat' comp_step))
  all_goals try comp_side
  all_goals try simp only [mul_zero, zero_mul, add_zero, zero_add, sub_zero, zero_sub, mul_one, one_mul]
  all_goals try push_cast
  all_goals comp_eq

/-- Every partial derivative set by `AltPassengerServiceMass` is the derivative of its output. -/
theorem partials (crewpayload_design_num_passengers crewpayload_passenger_service_mass_scaler : ℝ)
    :
    HasDerivAt (fun t => out_crewpayload_passenger_service_mass crewpayload_design_num_passengers t)
      (J_crewpayload_passenger_service_mass__crewpayload_passenger_service_mass_scaler
      crewpayload_design_num_passengers) crewpayload_passenger_service_mass_scaler :=
  d_crewpayload_passenger_service_mass__crewpayload_passenger_service_mass_scaler _ _

end Verif.Comp.MassFlopsBasedPassengerService.AltPassengerServiceMass

namespace Verif.Comp.MassFlopsBasedPassengerService.PassengerServiceMass
open Real

/-- aviary/subsystems/mass/flops_based/passenger_service.py:45 -/
noncomputable def passenger_service_weight (crewpayload_design_num_first_class crewpayload_design_num_business_class crewpayload_design_num_economy_class constraints_max_mach design_range crewpayload_passenger_service_mass_scaler : ℝ) : ℝ :=
  (((((1291 / 250) * crewpayload_design_num_first_class) + ((1923 / 500) *
    crewpayload_design_num_business_class)) + ((2529 / 1000) *
    crewpayload_design_num_economy_class)) * ((design_range / constraints_max_mach) ^ ((9 / 40)
    : ℝ))) * crewpayload_passenger_service_mass_scaler

/-- Output `crewpayload_passenger_service_mass` of `PassengerServiceMass.compute`, aviary/subsystems/mass/flops_based/passenger_service.py:50 -/
noncomputable def out_crewpayload_passenger_service_mass (crewpayload_design_num_first_class crewpayload_design_num_business_class crewpayload_design_num_economy_class constraints_max_mach design_range crewpayload_passenger_service_mass_scaler : ℝ) : ℝ :=
  passenger_service_weight crewpayload_design_num_first_class
    crewpayload_design_num_business_class crewpayload_design_num_economy_class
    constraints_max_mach design_range crewpayload_passenger_service_mass_scaler

/-- Partial of `crewpayload_passenger_service_mass` with respect to `design_range` as set by `PassengerServiceMass`, aviary/subsystems/mass/flops_based/passenger_service.py:64 -/
noncomputable def J_crewpayload_passenger_service_mass__design_range (crewpayload_design_num_first_class crewpayload_design_num_business_class crewpayload_design_num_economy_class constraints_max_mach design_range crewpayload_passenger_service_mass_scaler : ℝ) : ℝ :=
  (((crewpayload_passenger_service_mass_scaler * ((((1291 / 250) *
    crewpayload_design_num_first_class) + ((1923 / 500) *
    crewpayload_design_num_business_class)) + ((2529 / 1000) *
    crewpayload_design_num_economy_class))) * (9 / 40)) * ((design_range / constraints_max_mach)
    ^ ((-(31 / 40)) : ℝ))) / constraints_max_mach

/-- Partial of `crewpayload_passenger_service_mass` with respect to `crewpayload_passenger_service_mass_scaler` as set by `PassengerServiceMass`, aviary/subsystems/mass/flops_based/passenger_service.py:77 -/
noncomputable def J_crewpayload_passenger_service_mass__crewpayload_passenger_service_mass_scaler (crewpayload_design_num_first_class crewpayload_design_num_business_class crewpayload_design_num_economy_class constraints_max_mach design_range : ℝ) : ℝ :=
  ((((1291 / 250) * crewpayload_design_num_first_class) + ((1923 / 500) *
    crewpayload_design_num_business_class)) + ((2529 / 1000) *
    crewpayload_design_num_economy_class)) * ((design_range / constraints_max_mach) ^ ((9 / 40)
    : ℝ))

theorem d_crewpayload_passenger_service_mass__design_range (crewpayload_design_num_first_class
    crewpayload_design_num_business_class crewpayload_design_num_economy_class
    constraints_max_mach design_range crewpayload_passenger_service_mass_scaler : ℝ) (h0 : 0 <
    constraints_max_mach) (h1 : 0 < design_range) :
    HasDerivAt (fun t => out_crewpayload_passenger_service_mass crewpayload_design_num_first_class crewpayload_design_num_business_class crewpayload_design_num_economy_class constraints_max_mach t crewpayload_passenger_service_mass_scaler) (J_crewpayload_passenger_service_mass__design_range crewpayload_design_num_first_class crewpayload_design_num_business_class crewpayload_design_num_economy_class constraints_max_mach design_range crewpayload_passenger_service_mass_scaler) design_range := by
  have e0 : ∀ x : ℝ, 0 < x → x ^ ((-(31 / 40)) : ℝ) = x ^ ((9 / 40) : ℝ) / x ^ 1 := fun x hx => rpow_down hx 1 (by norm_num)
  simp only [out_crewpayload_passenger_service_mass, J_crewpayload_passenger_service_mass__design_range, passenger_service_weight]
  (apply hasDerivAt_of_eq; on_goal 1 => (repeat' comp_step))
  all_goals try comp_side
  all_goals try simp (disch := first | assumption | positivity) only [e0]
  all_goals try simp only [mul_zero, zero_mul, add_zero, zero_add, sub_zero, zero_sub, mul_one, one_mul]
  all_goals try push_cast
  all_goals comp_eq

theorem d_crewpayload_passenger_service_mass__crewpayload_passenger_service_mass_scaler
    (crewpayload_design_num_first_class crewpayload_design_num_business_class
    crewpayload_design_num_economy_class constraints_max_mach design_range
    crewpayload_passenger_service_mass_scaler : ℝ) (h0 : 0 < constraints_max_mach) (h1 : 0 <
    design_range) :
    HasDerivAt (fun t => out_crewpayload_passenger_service_mass crewpayload_design_num_first_class crewpayload_design_num_business_class crewpayload_design_num_economy_class constraints_max_mach design_range t) (J_crewpayload_passenger_service_mass__crewpayload_passenger_service_mass_scaler crewpayload_design_num_first_class crewpayload_design_num_business_class crewpayload_design_num_economy_class constraints_max_mach design_range) crewpayload_passenger_service_mass_scaler := by
  simp only [out_crewpayload_passenger_service_mass, J_crewpayload_passenger_service_mass__crewpayload_passenger_service_mass_scaler, passenger_service_weight]
  (apply hasDerivAt_of_eq; on_goal 1 => (repeat' comp_step))
  all_goals try comp_side
  all_goals try simp only [mul_zero, zero_mul, add_zero, zero_add, sub_zero, zero_sub, mul_one, one_mul]
  all_goals try push_cast
  all_goals comp_eq

/-- Every partial derivative set by `PassengerServiceMass` is the derivative of its output. -/
theorem partials (crewpayload_design_num_first_class crewpayload_design_num_business_class
    crewpayload_design_num_economy_class constraints_max_mach design_range
    crewpayload_passenger_service_mass_scaler : ℝ) (h0 : 0 < constraints_max_mach) (h1 : 0 <
    design_range) :
    HasDerivAt (fun t => out_crewpayload_passenger_service_mass crewpayload_design_num_first_class
      crewpayload_design_num_business_class crewpayload_design_num_economy_class
      constraints_max_mach t crewpayload_passenger_service_mass_scaler)
      (J_crewpayload_passenger_service_mass__design_range crewpayload_design_num_first_class
      crewpayload_design_num_business_class crewpayload_design_num_economy_class
      constraints_max_mach design_range crewpayload_passenger_service_mass_scaler) design_range ∧
    HasDerivAt (fun t => out_crewpayload_passenger_service_mass crewpayload_design_num_first_class
      crewpayload_design_num_business_class crewpayload_design_num_economy_class
      constraints_max_mach design_range t)
      (J_crewpayload_passenger_service_mass__crewpayload_passenger_service_mass_scaler
      crewpayload_design_num_first_class crewpayload_design_num_business_class
      crewpayload_design_num_economy_class constraints_max_mach design_range)
      crewpayload_passenger_service_mass_scaler :=
  ⟨d_crewpayload_passenger_service_mass__design_range _ _ _ _ _ _ h0 h1,
    d_crewpayload_passenger_service_mass__crewpayload_passenger_service_mass_scaler _ _ _ _ _ _ h0
    h1⟩

example : ∃ crewpayload_design_num_first_class crewpayload_design_num_business_class
      crewpayload_design_num_economy_class constraints_max_mach design_range
      crewpayload_passenger_service_mass_scaler : ℝ,
      0 < constraints_max_mach ∧
      0 < design_range :=
  ⟨0, 0, 0, 1, 1, 0, by comp_example, by comp_example⟩

end Verif.Comp.MassFlopsBasedPassengerService.PassengerServiceMass

