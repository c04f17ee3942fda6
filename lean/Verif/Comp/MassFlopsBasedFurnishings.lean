import Verif.Lemmas.CompDeriv

/-! # Partial derivatives of the components of `aviary/subsystems/mass/flops_based/furnishings.py`

One node of a vector component is modelled over the real numbers.  Each option that selects a
branch is fixed, one namespace per choice.  `out_x` is the output `x`, `J_x__y` the entry that
`compute_partials` (or `declare_partials` with `val`) assigns, `d_x__y` the proof that the entry is
the derivative.  Inputs an output does not take as argument have no influence on it.

* `BWBFurnishingsGroupMass_no_fuselagemilitarycargofloor`: not proved: `furnishings_mass` by
  `bwb_passenger_leading_edge_sweep` -/

set_option linter.all false

namespace Verif.Comp.MassFlopsBasedFurnishings.AltFurnishingsGroupMassBase
open Real

/-- Output `furnishings_mass_base` of `AltFurnishingsGroupMassBase.compute`, aviary/subsystems/mass/flops_based/furnishings.py:237 -/
noncomputable def out_furnishings_mass_base (crewpayload_design_num_passengers furnishings_mass_scaler : ℝ) : ℝ :=
  (((1643 / 20) * crewpayload_design_num_passengers) + 3600) * furnishings_mass_scaler

/-- Partial of `furnishings_mass_base` with respect to `furnishings_mass_scaler` as set by `AltFurnishingsGroupMassBase`, aviary/subsystems/mass/flops_based/furnishings.py:242 -/
noncomputable def J_furnishings_mass_base__furnishings_mass_scaler (crewpayload_design_num_passengers : ℝ) : ℝ :=
  ((1643 / 20) * crewpayload_design_num_passengers) + 3600

theorem d_furnishings_mass_base__furnishings_mass_scaler (crewpayload_design_num_passengers
    furnishings_mass_scaler : ℝ)  :
    HasDerivAt (fun t => out_furnishings_mass_base crewpayload_design_num_passengers t) (J_furnishings_mass_base__furnishings_mass_scaler crewpayload_design_num_passengers) furnishings_mass_scaler := by
  simp only [out_furnishings_mass_base, J_furnishings_mass_base__furnishings_mass_scaler]
  (apply hasDerivAt_of_eq; on_goal 1 => (repeat' comp_step))
  all_goals try comp_side
  all_goals try simp only [mul_zero, zero_mul, add_zero, zero_add, sub_zero, zero_sub, mul_one, one_mul]
  all_goals try push_cast
  all_goals comp_eq

/-- Every partial derivative set by `AltFurnishingsGroupMassBase` is the derivative of its output. -/
theorem partials (crewpayload_design_num_passengers furnishings_mass_scaler : ℝ) :
    HasDerivAt (fun t => out_furnishings_mass_base crewpayload_design_num_passengers t)
      (J_furnishings_mass_base__furnishings_mass_scaler crewpayload_design_num_passengers)
      furnishings_mass_scaler :=
  d_furnishings_mass_base__furnishings_mass_scaler _ _

end Verif.Comp.MassFlopsBasedFurnishings.AltFurnishingsGroupMassBase

namespace Verif.Comp.MassFlopsBasedFurnishings.BWBFurnishingsGroupMass_fuselagemilitarycargofloor
open Real

/-- aviary/subsystems/mass/flops_based/furnishings.py:122 -/
noncomputable def weight (crewpayload_num_flight_crew crewpayload_design_num_first_class crewpayload_design_num_business_class crewpayload_design_num_economy_class : ℝ) : ℝ :=
  (((127 * crewpayload_num_flight_crew) + (112 * crewpayload_design_num_first_class)) + (78 *
    crewpayload_design_num_business_class)) + (44 * crewpayload_design_num_economy_class)

/-- Output `furnishings_mass` of `BWBFurnishingsGroupMass.compute`, aviary/subsystems/mass/flops_based/furnishings.py:141 -/
noncomputable def out_furnishings_mass (crewpayload_num_flight_crew crewpayload_design_num_first_class crewpayload_design_num_business_class crewpayload_design_num_economy_class furnishings_mass_scaler : ℝ) : ℝ :=
  (weight crewpayload_num_flight_crew crewpayload_design_num_first_class
    crewpayload_design_num_business_class crewpayload_design_num_economy_class) *
    furnishings_mass_scaler

/-- Partial of `furnishings_mass` with respect to `furnishings_mass_scaler` as set by `BWBFurnishingsGroupMass`, aviary/subsystems/mass/flops_based/furnishings.py:151 -/
noncomputable def J_furnishings_mass__furnishings_mass_scaler (crewpayload_num_flight_crew crewpayload_design_num_first_class crewpayload_design_num_business_class crewpayload_design_num_economy_class : ℝ) : ℝ :=
  (((127 * crewpayload_num_flight_crew) + (112 * crewpayload_design_num_first_class)) + (78 *
    crewpayload_design_num_business_class)) + (44 * crewpayload_design_num_economy_class)

/-- Partial of `furnishings_mass` with respect to `fuselage_max_width` as set by `BWBFurnishingsGroupMass`, aviary/subsystems/mass/flops_based/furnishings.py:161 -/
noncomputable def J_furnishings_mass__fuselage_max_width : ℝ := 0

/-- Partial of `furnishings_mass` with respect to `fuselage_max_height` as set by `BWBFurnishingsGroupMass`, aviary/subsystems/mass/flops_based/furnishings.py:163 -/
noncomputable def J_furnishings_mass__fuselage_max_height : ℝ := 0

theorem d_furnishings_mass__furnishings_mass_scaler (crewpayload_num_flight_crew
    crewpayload_design_num_first_class crewpayload_design_num_business_class
    crewpayload_design_num_economy_class furnishings_mass_scaler : ℝ)  :
    HasDerivAt (fun t => out_furnishings_mass crewpayload_num_flight_crew crewpayload_design_num_first_class crewpayload_design_num_business_class crewpayload_design_num_economy_class t) (J_furnishings_mass__furnishings_mass_scaler crewpayload_num_flight_crew crewpayload_design_num_first_class crewpayload_design_num_business_class crewpayload_design_num_economy_class) furnishings_mass_scaler := by
  simp only [out_furnishings_mass, J_furnishings_mass__furnishings_mass_scaler, weight]
  (apply hasDerivAt_of_eq; on_goal 1 => (repeat' comp_step))
  all_goals try comp_side
  all_goals try simp only [mul_zero, zero_mul, add_zero, zero_add, sub_zero, zero_sub, mul_one, one_mul]
  all_goals try push_cast
  all_goals comp_eq

theorem d_furnishings_mass__fuselage_max_width (crewpayload_num_flight_crew
    crewpayload_design_num_first_class crewpayload_design_num_business_class
    crewpayload_design_num_economy_class furnishings_mass_scaler fuselage_max_width : ℝ)  :
    HasDerivAt (fun t => out_furnishings_mass crewpayload_num_flight_crew crewpayload_design_num_first_class crewpayload_design_num_business_class crewpayload_design_num_economy_class furnishings_mass_scaler) (J_furnishings_mass__fuselage_max_width) fuselage_max_width := by
  simp only [out_furnishings_mass, J_furnishings_mass__fuselage_max_width, weight]
  (apply hasDerivAt_of_eq; on_goal 1 => (repeat' comp_step))
  all_goals try comp_side
  all_goals try simp only [mul_zero, zero_mul, add_zero, zero_add, sub_zero, zero_sub, mul_one, one_mul]
  all_goals try push_cast
  all_goals comp_eq

theorem d_furnishings_mass__fuselage_max_height (crewpayload_num_flight_crew
    crewpayload_design_num_first_class crewpayload_design_num_business_class
    crewpayload_design_num_economy_class furnishings_mass_scaler fuselage_max_height : ℝ)  :
    HasDerivAt (fun t => out_furnishings_mass crewpayload_num_flight_crew crewpayload_design_num_first_class crewpayload_design_num_business_class crewpayload_design_num_economy_class furnishings_mass_scaler) (J_furnishings_mass__fuselage_max_height) fuselage_max_height := by
  simp only [out_furnishings_mass, J_furnishings_mass__fuselage_max_height, weight]
  (apply hasDerivAt_of_eq; on_goal 1 => (repeat' comp_step))
  all_goals try comp_side
  all_goals try simp only [mul_zero, zero_mul, add_zero, zero_add, sub_zero, zero_sub, mul_one, one_mul]
  all_goals try push_cast
  all_goals comp_eq

/-- Every partial derivative set by `BWBFurnishingsGroupMass` is the derivative of its output. -/
theorem partials (crewpayload_num_flight_crew crewpayload_design_num_first_class
    crewpayload_design_num_business_class crewpayload_design_num_economy_class
    furnishings_mass_scaler fuselage_max_width fuselage_max_height : ℝ) :
    HasDerivAt (fun t => out_furnishings_mass crewpayload_num_flight_crew
      crewpayload_design_num_first_class crewpayload_design_num_business_class
      crewpayload_design_num_economy_class t) (J_furnishings_mass__furnishings_mass_scaler
      crewpayload_num_flight_crew crewpayload_design_num_first_class
      crewpayload_design_num_business_class crewpayload_design_num_economy_class)
      furnishings_mass_scaler ∧
    HasDerivAt (fun t => out_furnishings_mass crewpayload_num_flight_crew
      crewpayload_design_num_first_class crewpayload_design_num_business_class
      crewpayload_design_num_economy_class furnishings_mass_scaler)
      (J_furnishings_mass__fuselage_max_width) fuselage_max_width ∧
    HasDerivAt (fun t => out_furnishings_mass crewpayload_num_flight_crew
      crewpayload_design_num_first_class crewpayload_design_num_business_class
      crewpayload_design_num_economy_class furnishings_mass_scaler)
      (J_furnishings_mass__fuselage_max_height) fuselage_max_height :=
  ⟨d_furnishings_mass__furnishings_mass_scaler _ _ _ _ _, d_furnishings_mass__fuselage_max_width _
    _ _ _ _ _, d_furnishings_mass__fuselage_max_height _ _ _ _ _ _⟩

end Verif.Comp.MassFlopsBasedFurnishings.BWBFurnishingsGroupMass_fuselagemilitarycargofloor

namespace Verif.Comp.MassFlopsBasedFurnishings.BWBFurnishingsGroupMass_no_fuselagemilitarycargofloor
open Real

/-- aviary/subsystems/mass/flops_based/furnishings.py:122 -/
noncomputable def weight (crewpayload_num_flight_crew crewpayload_design_num_first_class crewpayload_design_num_business_class crewpayload_design_num_economy_class : ℝ) : ℝ :=
  (((127 * crewpayload_num_flight_crew) + (112 * crewpayload_design_num_first_class)) + (78 *
    crewpayload_design_num_business_class)) + (44 * crewpayload_design_num_economy_class)

/-- aviary/subsystems/mass/flops_based/furnishings.py:134 -/
noncomputable def cos_ (bwb_passenger_leading_edge_sweep : ℝ) : ℝ :=
  cos ((π / 180) * bwb_passenger_leading_edge_sweep)

/-- aviary/subsystems/mass/flops_based/furnishings.py:136 -/
noncomputable def weight_2 (crewpayload_num_flight_crew crewpayload_design_num_first_class crewpayload_design_num_business_class crewpayload_design_num_economy_class fuselage_max_width fuselage_max_height fuselage_cabin_area bwb_num_bays bwb_passenger_leading_edge_sweep : ℝ) : ℝ :=
  (weight crewpayload_num_flight_crew crewpayload_design_num_first_class
    crewpayload_design_num_business_class crewpayload_design_num_economy_class) + ((13 / 5) *
    (((fuselage_cabin_area / fuselage_max_width) * (fuselage_max_width + (fuselage_max_height *
    bwb_num_bays))) + ((fuselage_max_width * (1 + (1 / (cos_
    bwb_passenger_leading_edge_sweep)))) * fuselage_max_height)))

/-- aviary/subsystems/mass/flops_based/furnishings.py:168 -/
noncomputable def d2r (bwb_passenger_leading_edge_sweep : ℝ) : ℝ :=
  (bwb_passenger_leading_edge_sweep * π) / 180

/-- aviary/subsystems/mass/flops_based/furnishings.py:169 -/
noncomputable def cos__2 (bwb_passenger_leading_edge_sweep : ℝ) : ℝ :=
  cos (d2r bwb_passenger_leading_edge_sweep)

/-- aviary/subsystems/mass/flops_based/furnishings.py:170 -/
noncomputable def tan_ (bwb_passenger_leading_edge_sweep : ℝ) : ℝ :=
  tan (d2r bwb_passenger_leading_edge_sweep)

/-- Output `furnishings_mass` of `BWBFurnishingsGroupMass.compute`, aviary/subsystems/mass/flops_based/furnishings.py:141 -/
noncomputable def out_furnishings_mass (crewpayload_num_flight_crew crewpayload_design_num_first_class crewpayload_design_num_business_class crewpayload_design_num_economy_class furnishings_mass_scaler fuselage_max_width fuselage_max_height fuselage_cabin_area bwb_num_bays bwb_passenger_leading_edge_sweep : ℝ) : ℝ :=
  (weight_2 crewpayload_num_flight_crew crewpayload_design_num_first_class
    crewpayload_design_num_business_class crewpayload_design_num_economy_class
    fuselage_max_width fuselage_max_height fuselage_cabin_area bwb_num_bays
    bwb_passenger_leading_edge_sweep) * furnishings_mass_scaler

/-- Partial of `furnishings_mass` with respect to `furnishings_mass_scaler` as set by `BWBFurnishingsGroupMass`, aviary/subsystems/mass/flops_based/furnishings.py:178 -/
noncomputable def J_furnishings_mass__furnishings_mass_scaler (crewpayload_num_flight_crew crewpayload_design_num_first_class crewpayload_design_num_business_class crewpayload_design_num_economy_class fuselage_max_width fuselage_max_height fuselage_cabin_area bwb_num_bays bwb_passenger_leading_edge_sweep : ℝ) : ℝ :=
  ((((127 * crewpayload_num_flight_crew) + (112 * crewpayload_design_num_first_class)) + (78 *
    crewpayload_design_num_business_class)) + (44 * crewpayload_design_num_economy_class)) +
    ((13 / 5) * (((fuselage_cabin_area / fuselage_max_width) * (fuselage_max_width +
    (fuselage_max_height * bwb_num_bays))) + ((fuselage_max_width * (1 + (1 / (cos__2
    bwb_passenger_leading_edge_sweep)))) * fuselage_max_height)))

/-- Partial of `furnishings_mass` with respect to `fuselage_cabin_area` as set by `BWBFurnishingsGroupMass`, aviary/subsystems/mass/flops_based/furnishings.py:187 -/
noncomputable def J_furnishings_mass__fuselage_cabin_area (furnishings_mass_scaler fuselage_max_width fuselage_max_height bwb_num_bays : ℝ) : ℝ :=
  (((13 / 5) * furnishings_mass_scaler) * (fuselage_max_width + (fuselage_max_height *
    bwb_num_bays))) / fuselage_max_width

/-- Partial of `furnishings_mass` with respect to `fuselage_max_width` as set by `BWBFurnishingsGroupMass`, aviary/subsystems/mass/flops_based/furnishings.py:191 -/
noncomputable def J_furnishings_mass__fuselage_max_width (furnishings_mass_scaler fuselage_max_width fuselage_max_height fuselage_cabin_area bwb_num_bays bwb_passenger_leading_edge_sweep : ℝ) : ℝ :=
  ((13 / 5) * furnishings_mass_scaler) * (((((-fuselage_cabin_area) * fuselage_max_height) *
    bwb_num_bays) / (fuselage_max_width * fuselage_max_width)) + ((1 + (1 / (cos__2
    bwb_passenger_leading_edge_sweep))) * fuselage_max_height))

/-- Partial of `furnishings_mass` with respect to `fuselage_max_height` as set by `BWBFurnishingsGroupMass`, aviary/subsystems/mass/flops_based/furnishings.py:200 -/
noncomputable def J_furnishings_mass__fuselage_max_height (furnishings_mass_scaler fuselage_max_width fuselage_cabin_area bwb_num_bays bwb_passenger_leading_edge_sweep : ℝ) : ℝ :=
  ((13 / 5) * furnishings_mass_scaler) * (((fuselage_cabin_area / fuselage_max_width) *
    bwb_num_bays) + (fuselage_max_width * (1 + (1 / (cos__2
    bwb_passenger_leading_edge_sweep)))))

/-- Partial of `furnishings_mass` with respect to `bwb_passenger_leading_edge_sweep` as set by `BWBFurnishingsGroupMass`, aviary/subsystems/mass/flops_based/furnishings.py:206 -/
noncomputable def J_furnishings_mass__bwb_passenger_leading_edge_sweep (furnishings_mass_scaler fuselage_max_width fuselage_max_height bwb_passenger_leading_edge_sweep : ℝ) : ℝ :=
  ((((((13 / 5) * furnishings_mass_scaler) * fuselage_max_width) * fuselage_max_height) * (tan_
    bwb_passenger_leading_edge_sweep)) / (cos__2 bwb_passenger_leading_edge_sweep)) / (180 / π)

/-- Partial of `furnishings_mass` with respect to `bwb_num_bays` as set by `BWBFurnishingsGroupMass`, aviary/subsystems/mass/flops_based/furnishings.py:210 -/
noncomputable def J_furnishings_mass__bwb_num_bays (furnishings_mass_scaler fuselage_max_width fuselage_max_height fuselage_cabin_area : ℝ) : ℝ :=
  (((13 / 5) * furnishings_mass_scaler) * (fuselage_cabin_area / fuselage_max_width)) *
    fuselage_max_height

theorem d_furnishings_mass__furnishings_mass_scaler (crewpayload_num_flight_crew
    crewpayload_design_num_first_class crewpayload_design_num_business_class
    crewpayload_design_num_economy_class furnishings_mass_scaler fuselage_max_width
    fuselage_max_height fuselage_cabin_area bwb_num_bays bwb_passenger_leading_edge_sweep : ℝ) (h0
    : 0 < fuselage_max_width) (h1 : cos ((π / 180) * bwb_passenger_leading_edge_sweep) ≠ 0) (h2 :
    cos ((bwb_passenger_leading_edge_sweep * π) / 180) ≠ 0) :
    HasDerivAt (fun t => out_furnishings_mass crewpayload_num_flight_crew crewpayload_design_num_first_class crewpayload_design_num_business_class crewpayload_design_num_economy_class t fuselage_max_width fuselage_max_height fuselage_cabin_area bwb_num_bays bwb_passenger_leading_edge_sweep) (J_furnishings_mass__furnishings_mass_scaler crewpayload_num_flight_crew crewpayload_design_num_first_class crewpayload_design_num_business_class crewpayload_design_num_economy_class fuselage_max_width fuselage_max_height fuselage_cabin_area bwb_num_bays bwb_passenger_leading_edge_sweep) furnishings_mass_scaler := by
  simp only [out_furnishings_mass, J_furnishings_mass__furnishings_mass_scaler, cos__2, d2r, weight_2, cos_, weight]
  (apply hasDerivAt_of_eq; on_goal 1 => (repeat' comp_step))
  all_goals try comp_side
  all_goals try simp only [mul_zero, zero_mul, add_zero, zero_add, sub_zero, zero_sub, mul_one, one_mul]
  all_goals try push_cast
  all_goals comp_eq

theorem d_furnishings_mass__fuselage_max_width (crewpayload_num_flight_crew
    crewpayload_design_num_first_class crewpayload_design_num_business_class
    crewpayload_design_num_economy_class furnishings_mass_scaler fuselage_max_width
    fuselage_max_height fuselage_cabin_area bwb_num_bays bwb_passenger_leading_edge_sweep : ℝ) (h0
    : 0 < fuselage_max_width) (h1 : cos ((π / 180) * bwb_passenger_leading_edge_sweep) ≠ 0) (h2 :
    cos ((bwb_passenger_leading_edge_sweep * π) / 180) ≠ 0) :
    HasDerivAt (fun t => out_furnishings_mass crewpayload_num_flight_crew crewpayload_design_num_first_class crewpayload_design_num_business_class crewpayload_design_num_economy_class furnishings_mass_scaler t fuselage_max_height fuselage_cabin_area bwb_num_bays bwb_passenger_leading_edge_sweep) (J_furnishings_mass__fuselage_max_width furnishings_mass_scaler fuselage_max_width fuselage_max_height fuselage_cabin_area bwb_num_bays bwb_passenger_leading_edge_sweep) fuselage_max_width := by
  simp only [out_furnishings_mass, J_furnishings_mass__fuselage_max_width, cos__2, d2r, weight_2, cos_, weight]
  (apply hasDerivAt_of_eq; on_goal 1 => (repeat' comp_step))
  all_goals try comp_side
  all_goals try simp only [mul_zero, zero_mul, add_zero, zero_add, sub_zero, zero_sub, mul_one, one_mul]
  all_goals try push_cast
  all_goals comp_eq

theorem d_furnishings_mass__fuselage_max_height (crewpayload_num_flight_crew
    crewpayload_design_num_first_class crewpayload_design_num_business_class
    crewpayload_design_num_economy_class furnishings_mass_scaler fuselage_max_width
    fuselage_max_height fuselage_cabin_area bwb_num_bays bwb_passenger_leading_edge_sweep : ℝ) (h0
    : 0 < fuselage_max_width) (h1 : cos ((π / 180) * bwb_passenger_leading_edge_sweep) ≠ 0) (h2 :
    cos ((bwb_passenger_leading_edge_sweep * π) / 180) ≠ 0) :
    HasDerivAt (fun t => out_furnishings_mass crewpayload_num_flight_crew crewpayload_design_num_first_class crewpayload_design_num_business_class crewpayload_design_num_economy_class furnishings_mass_scaler fuselage_max_width t fuselage_cabin_area bwb_num_bays bwb_passenger_leading_edge_sweep) (J_furnishings_mass__fuselage_max_height furnishings_mass_scaler fuselage_max_width fuselage_cabin_area bwb_num_bays bwb_passenger_leading_edge_sweep) fuselage_max_height := by
  simp only [out_furnishings_mass, J_furnishings_mass__fuselage_max_height, cos__2, d2r, weight_2, cos_, weight]
  (apply hasDerivAt_of_eq; on_goal 1 => (repeat' comp_step))
  all_goals try comp_side
  all_goals try simp only [mul_zero, zero_mul, add_zero, zero_add, sub_zero, zero_sub, mul_one, one_mul]
  all_goals try push_cast
  all_goals comp_eq

theorem d_furnishings_mass__fuselage_cabin_area (crewpayload_num_flight_crew
    crewpayload_design_num_first_class crewpayload_design_num_business_class
    crewpayload_design_num_economy_class furnishings_mass_scaler fuselage_max_width
    fuselage_max_height fuselage_cabin_area bwb_num_bays bwb_passenger_leading_edge_sweep : ℝ) (h0
    : 0 < fuselage_max_width) (h1 : cos ((π / 180) * bwb_passenger_leading_edge_sweep) ≠ 0) :
    HasDerivAt (fun t => out_furnishings_mass crewpayload_num_flight_crew crewpayload_design_num_first_class crewpayload_design_num_business_class crewpayload_design_num_economy_class furnishings_mass_scaler fuselage_max_width fuselage_max_height t bwb_num_bays bwb_passenger_leading_edge_sweep) (J_furnishings_mass__fuselage_cabin_area furnishings_mass_scaler fuselage_max_width fuselage_max_height bwb_num_bays) fuselage_cabin_area := by
  simp only [out_furnishings_mass, J_furnishings_mass__fuselage_cabin_area, weight_2, cos_, weight]
  (apply hasDerivAt_of_eq; on_goal 1 => (repeat' comp_step))
  all_goals try comp_side
  all_goals try simp only [mul_zero, zero_mul, add_zero, zero_add, sub_zero, zero_sub, mul_one, one_mul]
  all_goals try push_cast
  all_goals comp_eq

theorem d_furnishings_mass__bwb_num_bays (crewpayload_num_flight_crew
    crewpayload_design_num_first_class crewpayload_design_num_business_class
    crewpayload_design_num_economy_class furnishings_mass_scaler fuselage_max_width
    fuselage_max_height fuselage_cabin_area bwb_num_bays bwb_passenger_leading_edge_sweep : ℝ) (h0
    : 0 < fuselage_max_width) (h1 : cos ((π / 180) * bwb_passenger_leading_edge_sweep) ≠ 0) :
    HasDerivAt (fun t => out_furnishings_mass crewpayload_num_flight_crew crewpayload_design_num_first_class crewpayload_design_num_business_class crewpayload_design_num_economy_class furnishings_mass_scaler fuselage_max_width fuselage_max_height fuselage_cabin_area t bwb_passenger_leading_edge_sweep) (J_furnishings_mass__bwb_num_bays furnishings_mass_scaler fuselage_max_width fuselage_max_height fuselage_cabin_area) bwb_num_bays := by
  simp only [out_furnishings_mass, J_furnishings_mass__bwb_num_bays, weight_2, cos_, weight]
  (apply hasDerivAt_of_eq; on_goal 1 => (repeat' comp_step))
  all_goals try comp_side
  all_goals try simp only [mul_zero, zero_mul, add_zero, zero_add, sub_zero, zero_sub, mul_one, one_mul]
  all_goals try push_cast
  all_goals comp_eq

/-- Partial derivatives of `BWBFurnishingsGroupMass` that are proved correct (the rest is listed in the header). -/
theorem partials_partial (crewpayload_num_flight_crew crewpayload_design_num_first_class
    crewpayload_design_num_business_class crewpayload_design_num_economy_class
    furnishings_mass_scaler fuselage_max_width fuselage_max_height fuselage_cabin_area
    bwb_num_bays bwb_passenger_leading_edge_sweep : ℝ) (h0 : 0 < fuselage_max_width) (h1 : cos ((π
    / 180) * bwb_passenger_leading_edge_sweep) ≠ 0) (h2 : cos ((bwb_passenger_leading_edge_sweep *
    π) / 180) ≠ 0) :
    HasDerivAt (fun t => out_furnishings_mass crewpayload_num_flight_crew
      crewpayload_design_num_first_class crewpayload_design_num_business_class
      crewpayload_design_num_economy_class t fuselage_max_width fuselage_max_height
      fuselage_cabin_area bwb_num_bays bwb_passenger_leading_edge_sweep)
      (J_furnishings_mass__furnishings_mass_scaler crewpayload_num_flight_crew
      crewpayload_design_num_first_class crewpayload_design_num_business_class
      crewpayload_design_num_economy_class fuselage_max_width fuselage_max_height
      fuselage_cabin_area bwb_num_bays bwb_passenger_leading_edge_sweep) furnishings_mass_scaler ∧
    HasDerivAt (fun t => out_furnishings_mass crewpayload_num_flight_crew
      crewpayload_design_num_first_class crewpayload_design_num_business_class
      crewpayload_design_num_economy_class furnishings_mass_scaler t fuselage_max_height
      fuselage_cabin_area bwb_num_bays bwb_passenger_leading_edge_sweep)
      (J_furnishings_mass__fuselage_max_width furnishings_mass_scaler fuselage_max_width
      fuselage_max_height fuselage_cabin_area bwb_num_bays bwb_passenger_leading_edge_sweep)
      fuselage_max_width ∧
    HasDerivAt (fun t => out_furnishings_mass crewpayload_num_flight_crew
      crewpayload_design_num_first_class crewpayload_design_num_business_class
      crewpayload_design_num_economy_class furnishings_mass_scaler fuselage_max_width t
      fuselage_cabin_area bwb_num_bays bwb_passenger_leading_edge_sweep)
      (J_furnishings_mass__fuselage_max_height furnishings_mass_scaler fuselage_max_width
      fuselage_cabin_area bwb_num_bays bwb_passenger_leading_edge_sweep) fuselage_max_height ∧
    HasDerivAt (fun t => out_furnishings_mass crewpayload_num_flight_crew
      crewpayload_design_num_first_class crewpayload_design_num_business_class
      crewpayload_design_num_economy_class furnishings_mass_scaler fuselage_max_width
      fuselage_max_height t bwb_num_bays bwb_passenger_leading_edge_sweep)
      (J_furnishings_mass__fuselage_cabin_area furnishings_mass_scaler fuselage_max_width
      fuselage_max_height bwb_num_bays) fuselage_cabin_area ∧
    HasDerivAt (fun t => out_furnishings_mass crewpayload_num_flight_crew
      crewpayload_design_num_first_class crewpayload_design_num_business_class
      crewpayload_design_num_economy_class furnishings_mass_scaler fuselage_max_width
      fuselage_max_height fuselage_cabin_area t bwb_passenger_leading_edge_sweep)
      (J_furnishings_mass__bwb_num_bays furnishings_mass_scaler fuselage_max_width
      fuselage_max_height fuselage_cabin_area) bwb_num_bays :=
  ⟨d_furnishings_mass__furnishings_mass_scaler _ _ _ _ _ _ _ _ _ _ h0 h1 h2,
    d_furnishings_mass__fuselage_max_width _ _ _ _ _ _ _ _ _ _ h0 h1 h2,
    d_furnishings_mass__fuselage_max_height _ _ _ _ _ _ _ _ _ _ h0 h1 h2,
    d_furnishings_mass__fuselage_cabin_area _ _ _ _ _ _ _ _ _ _ h0 h1,
    d_furnishings_mass__bwb_num_bays _ _ _ _ _ _ _ _ _ _ h0 h1⟩

example : ∃ crewpayload_num_flight_crew crewpayload_design_num_first_class
      crewpayload_design_num_business_class crewpayload_design_num_economy_class
      furnishings_mass_scaler fuselage_max_width fuselage_max_height fuselage_cabin_area
      bwb_num_bays bwb_passenger_leading_edge_sweep : ℝ,
      0 < fuselage_max_width ∧
      cos ((π / 180) * bwb_passenger_leading_edge_sweep) ≠ 0 ∧
      cos ((bwb_passenger_leading_edge_sweep * π) / 180) ≠ 0 :=
  ⟨0, 0, 0, 0, 0, 1, 0, 0, 0, 0, by comp_example, by comp_example, by comp_example⟩

end Verif.Comp.MassFlopsBasedFurnishings.BWBFurnishingsGroupMass_no_fuselagemilitarycargofloor

namespace Verif.Comp.MassFlopsBasedFurnishings.TransportFurnishingsGroupMass
open Real

/-- Output `furnishings_mass` of `TransportFurnishingsGroupMass.compute`, aviary/subsystems/mass/flops_based/furnishings.py:48 -/
noncomputable def out_furnishings_mass (crewpayload_num_flight_crew crewpayload_design_num_first_class crewpayload_design_num_business_class crewpayload_design_num_economy_class fuselage_num_fuselages furnishings_mass_scaler fuselage_passenger_compartment_length fuselage_max_width fuselage_max_height : ℝ) : ℝ :=
  (((((127 * crewpayload_num_flight_crew) + (112 * crewpayload_design_num_first_class)) + (78 *
    crewpayload_design_num_business_class)) + (44 * crewpayload_design_num_economy_class)) +
    ((((13 / 5) * fuselage_passenger_compartment_length) * (fuselage_max_width +
    fuselage_max_height)) * fuselage_num_fuselages)) * furnishings_mass_scaler

/-- Partial of `furnishings_mass` with respect to `furnishings_mass_scaler` as set by `TransportFurnishingsGroupMass`, aviary/subsystems/mass/flops_based/furnishings.py:70 -/
noncomputable def J_furnishings_mass__furnishings_mass_scaler (crewpayload_num_flight_crew crewpayload_design_num_first_class crewpayload_design_num_business_class crewpayload_design_num_economy_class fuselage_num_fuselages fuselage_passenger_compartment_length fuselage_max_width fuselage_max_height : ℝ) : ℝ :=
  ((((127 * crewpayload_num_flight_crew) + (112 * crewpayload_design_num_first_class)) + (78 *
    crewpayload_design_num_business_class)) + (44 * crewpayload_design_num_economy_class)) +
    ((((13 / 5) * fuselage_passenger_compartment_length) * (fuselage_max_width +
    fuselage_max_height)) * fuselage_num_fuselages)

/-- Partial of `furnishings_mass` with respect to `fuselage_passenger_compartment_length` as set by `TransportFurnishingsGroupMass`, aviary/subsystems/mass/flops_based/furnishings.py:78 -/
noncomputable def J_furnishings_mass__fuselage_passenger_compartment_length (fuselage_num_fuselages furnishings_mass_scaler fuselage_max_width fuselage_max_height : ℝ) : ℝ :=
  (((13 / 5) * furnishings_mass_scaler) * (fuselage_max_width + fuselage_max_height)) *
    fuselage_num_fuselages

/-- Partial of `furnishings_mass` with respect to `fuselage_max_width` as set by `TransportFurnishingsGroupMass`, aviary/subsystems/mass/flops_based/furnishings.py:82 -/
noncomputable def J_furnishings_mass__fuselage_max_width (fuselage_num_fuselages furnishings_mass_scaler fuselage_passenger_compartment_length : ℝ) : ℝ :=
  (((13 / 5) * furnishings_mass_scaler) * fuselage_passenger_compartment_length) *
    fuselage_num_fuselages

/-- Partial of `furnishings_mass` with respect to `fuselage_max_height` as set by `TransportFurnishingsGroupMass`, aviary/subsystems/mass/flops_based/furnishings.py:82 -/
noncomputable def J_furnishings_mass__fuselage_max_height (fuselage_num_fuselages furnishings_mass_scaler fuselage_passenger_compartment_length : ℝ) : ℝ :=
  (((13 / 5) * furnishings_mass_scaler) * fuselage_passenger_compartment_length) *
    fuselage_num_fuselages

theorem d_furnishings_mass__furnishings_mass_scaler (crewpayload_num_flight_crew
    crewpayload_design_num_first_class crewpayload_design_num_business_class
    crewpayload_design_num_economy_class fuselage_num_fuselages furnishings_mass_scaler
    fuselage_passenger_compartment_length fuselage_max_width fuselage_max_height : ℝ)  :
    HasDerivAt (fun t => out_furnishings_mass crewpayload_num_flight_crew crewpayload_design_num_first_class crewpayload_design_num_business_class crewpayload_design_num_economy_class fuselage_num_fuselages t fuselage_passenger_compartment_length fuselage_max_width fuselage_max_height) (J_furnishings_mass__furnishings_mass_scaler crewpayload_num_flight_crew crewpayload_design_num_first_class crewpayload_design_num_business_class crewpayload_design_num_economy_class fuselage_num_fuselages fuselage_passenger_compartment_length fuselage_max_width fuselage_max_height) furnishings_mass_scaler := by
  simp only [out_furnishings_mass, J_furnishings_mass__furnishings_mass_scaler]
  (apply hasDerivAt_of_eq; on_goal 1 => (repeat' comp_step))
  all_goals try comp_side
  all_goals try simp only [mul_zero, zero_mul, add_zero, zero_add, sub_zero, zero_sub, mul_one, one_mul]
  all_goals try push_cast
  all_goals comp_eq

theorem d_furnishings_mass__fuselage_passenger_compartment_length (crewpayload_num_flight_crew
    crewpayload_design_num_first_class crewpayload_design_num_business_class
    crewpayload_design_num_economy_class fuselage_num_fuselages furnishings_mass_scaler
    fuselage_passenger_compartment_length fuselage_max_width fuselage_max_height : ℝ)  :
    HasDerivAt (fun t => out_furnishings_mass crewpayload_num_flight_crew crewpayload_design_num_first_class crewpayload_design_num_business_class crewpayload_design_num_economy_class fuselage_num_fuselages furnishings_mass_scaler t fuselage_max_width fuselage_max_height) (J_furnishings_mass__fuselage_passenger_compartment_length fuselage_num_fuselages furnishings_mass_scaler fuselage_max_width fuselage_max_height) fuselage_passenger_compartment_length := by
  simp only [out_furnishings_mass, J_furnishings_mass__fuselage_passenger_compartment_length]
  (apply hasDerivAt_of_eq; on_goal 1 => (repeat' comp_step))
  all_goals try comp_side
  all_goals try simp only [mul_zero, zero_mul, add_zero, zero_add, sub_zero, zero_sub, mul_one, one_mul]
  all_goals try push_cast
  all_goals comp_eq

theorem d_furnishings_mass__fuselage_max_width (crewpayload_num_flight_crew
    crewpayload_design_num_first_class crewpayload_design_num_business_class
    crewpayload_design_num_economy_class fuselage_num_fuselages furnishings_mass_scaler
    fuselage_passenger_compartment_length fuselage_max_width fuselage_max_height : ℝ)  :
    HasDerivAt (fun t => out_furnishings_mass crewpayload_num_flight_crew crewpayload_design_num_first_class crewpayload_design_num_business_class crewpayload_design_num_economy_class fuselage_num_fuselages furnishings_mass_scaler fuselage_passenger_compartment_length t fuselage_max_height) (J_furnishings_mass__fuselage_max_width fuselage_num_fuselages furnishings_mass_scaler fuselage_passenger_compartment_length) fuselage_max_width := by
  simp only [out_furnishings_mass, J_furnishings_mass__fuselage_max_width]
  (apply hasDerivAt_of_eq; on_goal 1 => (repeat' comp_step))
  all_goals try comp_side
  all_goals try simp only [mul_zero, zero_mul, add_zero, zero_add, sub_zero, zero_sub, mul_one, one_mul]
  all_goals try push_cast
  all_goals comp_eq

theorem d_furnishings_mass__fuselage_max_height (crewpayload_num_flight_crew
    crewpayload_design_num_first_class crewpayload_design_num_business_class
    crewpayload_design_num_economy_class fuselage_num_fuselages furnishings_mass_scaler
    fuselage_passenger_compartment_length fuselage_max_width fuselage_max_height : ℝ)  :
    HasDerivAt (fun t => out_furnishings_mass crewpayload_num_flight_crew crewpayload_design_num_first_class crewpayload_design_num_business_class crewpayload_design_num_economy_class fuselage_num_fuselages furnishings_mass_scaler fuselage_passenger_compartment_length fuselage_max_width t) (J_furnishings_mass__fuselage_max_height fuselage_num_fuselages furnishings_mass_scaler fuselage_passenger_compartment_length) fuselage_max_height := by
  simp only [out_furnishings_mass, J_furnishings_mass__fuselage_max_height]
  (apply hasDerivAt_of_eq; on_goal 1 => (repeat' comp_step))
  all_goals try comp_side
  all_goals try simp only [mul_zero, zero_mul, add_zero, zero_add, sub_zero, zero_sub, mul_one, one_mul]
  all_goals try push_cast
  all_goals comp_eq

/-- Every partial derivative set by `TransportFurnishingsGroupMass` is the derivative of its output. -/
theorem partials (crewpayload_num_flight_crew crewpayload_design_num_first_class
    crewpayload_design_num_business_class crewpayload_design_num_economy_class
    fuselage_num_fuselages furnishings_mass_scaler fuselage_passenger_compartment_length
    fuselage_max_width fuselage_max_height : ℝ) :
    HasDerivAt (fun t => out_furnishings_mass crewpayload_num_flight_crew
      crewpayload_design_num_first_class crewpayload_design_num_business_class
      crewpayload_design_num_economy_class fuselage_num_fuselages t
      fuselage_passenger_compartment_length fuselage_max_width fuselage_max_height)
      (J_furnishings_mass__furnishings_mass_scaler crewpayload_num_flight_crew
      crewpayload_design_num_first_class crewpayload_design_num_business_class
      crewpayload_design_num_economy_class fuselage_num_fuselages
      fuselage_passenger_compartment_length fuselage_max_width fuselage_max_height)
      furnishings_mass_scaler ∧
    HasDerivAt (fun t => out_furnishings_mass crewpayload_num_flight_crew
      crewpayload_design_num_first_class crewpayload_design_num_business_class
      crewpayload_design_num_economy_class fuselage_num_fuselages furnishings_mass_scaler t
      fuselage_max_width fuselage_max_height)
      (J_furnishings_mass__fuselage_passenger_compartment_length fuselage_num_fuselages
      furnishings_mass_scaler fuselage_max_width fuselage_max_height)
      fuselage_passenger_compartment_length ∧
    HasDerivAt (fun t => out_furnishings_mass crewpayload_num_flight_crew
      crewpayload_design_num_first_class crewpayload_design_num_business_class
      crewpayload_design_num_economy_class fuselage_num_fuselages furnishings_mass_scaler
      fuselage_passenger_compartment_length t fuselage_max_height)
      (J_furnishings_mass__fuselage_max_width fuselage_num_fuselages furnishings_mass_scaler
      fuselage_passenger_compartment_length) fuselage_max_width ∧
    HasDerivAt (fun t => out_furnishings_mass crewpayload_num_flight_crew
      crewpayload_design_num_first_class crewpayload_design_num_business_class
      crewpayload_design_num_economy_class fuselage_num_fuselages furnishings_mass_scaler
      fuselage_passenger_compartment_length fuselage_max_width t)
      (J_furnishings_mass__fuselage_max_height fuselage_num_fuselages furnishings_mass_scaler
      fuselage_passenger_compartment_length) fuselage_max_height :=
  ⟨d_furnishings_mass__furnishings_mass_scaler _ _ _ _ _ _ _ _ _,
    d_furnishings_mass__fuselage_passenger_compartment_length _ _ _ _ _ _ _ _ _,
    d_furnishings_mass__fuselage_max_width _ _ _ _ _ _ _ _ _,
    d_furnishings_mass__fuselage_max_height _ _ _ _ _ _ _ _ _⟩

end Verif.Comp.MassFlopsBasedFurnishings.TransportFurnishingsGroupMass

