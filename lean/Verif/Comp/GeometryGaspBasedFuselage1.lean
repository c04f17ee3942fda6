import Verif.Lemmas.CompDeriv

/-! # Partial derivatives of the components of `aviary/subsystems/geometry/gasp_based/fuselage.py`

One node of a vector component is modelled over the real numbers.  Each option that selects a
branch is fixed, one namespace per choice.  `out_x` is the output `x`, `J_x__y` the entry that
`compute_partials` (or `declare_partials` with `val`) assigns, `d_x__y` the proof that the entry is
the derivative.  Inputs an output does not take as argument have no influence on it.

* `BWBFuselageParameters1`: entries that differ from the derivative: `fuselage_hydraulic_diameter`
  by `fuselage_aisle_width` -/

set_option linter.all false

namespace Verif.Comp.GeometryGaspBasedFuselage.BWBFuselageParameters1
open Real

/-- aviary/subsystems/geometry/gasp_based/fuselage.py:368 -/
noncomputable def cabin_width (crewpayload_design_num_seats_abreast_economy fuselage_num_aisles fuselage_seat_width_economy fuselage_aisle_width : ℝ) : ℝ :=
  (((crewpayload_design_num_seats_abreast_economy * fuselage_seat_width_economy) +
    (fuselage_num_aisles * fuselage_aisle_width)) / 12) + 1

/-- aviary/subsystems/geometry/gasp_based/fuselage.py:369 -/
noncomputable def body_width (crewpayload_design_num_seats_abreast_economy fuselage_num_aisles fuselage_seat_width_economy fuselage_aisle_width fuselage_pressurized_width_additional : ℝ) : ℝ :=
  (cabin_width crewpayload_design_num_seats_abreast_economy fuselage_num_aisles
    fuselage_seat_width_economy fuselage_aisle_width) + fuselage_pressurized_width_additional

/-- aviary/subsystems/geometry/gasp_based/fuselage.py:371 -/
noncomputable def cabin_height (crewpayload_design_num_seats_abreast_economy fuselage_num_aisles fuselage_seat_width_economy fuselage_aisle_width fuselage_height_to_width_ratio : ℝ) : ℝ :=
  (cabin_width crewpayload_design_num_seats_abreast_economy fuselage_num_aisles
    fuselage_seat_width_economy fuselage_aisle_width) * fuselage_height_to_width_ratio

/-- aviary/subsystems/geometry/gasp_based/fuselage.py:372 -/
noncomputable def nose_height (crewpayload_design_num_seats_abreast_economy fuselage_num_aisles fuselage_seat_width_economy fuselage_aisle_width fuselage_height_to_width_ratio fuselage_delta_diameter : ℝ) : ℝ :=
  (cabin_height crewpayload_design_num_seats_abreast_economy fuselage_num_aisles
    fuselage_seat_width_economy fuselage_aisle_width fuselage_height_to_width_ratio) -
    fuselage_delta_diameter

/-- aviary/subsystems/geometry/gasp_based/fuselage.py:373 -/
noncomputable def nose_length (crewpayload_design_num_seats_abreast_economy fuselage_num_aisles fuselage_seat_width_economy fuselage_aisle_width fuselage_height_to_width_ratio fuselage_delta_diameter fuselage_nose_fineness : ℝ) : ℝ :=
  (nose_height crewpayload_design_num_seats_abreast_economy fuselage_num_aisles
    fuselage_seat_width_economy fuselage_aisle_width fuselage_height_to_width_ratio
    fuselage_delta_diameter) * fuselage_nose_fineness

/-- aviary/subsystems/geometry/gasp_based/fuselage.py:379 -/
noncomputable def fuselage_cross_area (crewpayload_design_num_seats_abreast_economy fuselage_num_aisles fuselage_seat_width_economy fuselage_aisle_width fuselage_pressurized_width_additional fuselage_height_to_width_ratio : ℝ) : ℝ :=
  ((π * (body_width crewpayload_design_num_seats_abreast_economy fuselage_num_aisles
    fuselage_seat_width_economy fuselage_aisle_width fuselage_pressurized_width_additional)) *
    (cabin_height crewpayload_design_num_seats_abreast_economy fuselage_num_aisles
    fuselage_seat_width_economy fuselage_aisle_width fuselage_height_to_width_ratio)) / 4

/-- aviary/subsystems/geometry/gasp_based/fuselage.py:380 -/
noncomputable def hydraulic_diameter (crewpayload_design_num_seats_abreast_economy fuselage_num_aisles fuselage_seat_width_economy fuselage_aisle_width fuselage_pressurized_width_additional fuselage_height_to_width_ratio : ℝ) : ℝ :=
  sqrt ((4 * (fuselage_cross_area crewpayload_design_num_seats_abreast_economy
    fuselage_num_aisles fuselage_seat_width_economy fuselage_aisle_width
    fuselage_pressurized_width_additional fuselage_height_to_width_ratio)) / π)

/-- aviary/subsystems/geometry/gasp_based/fuselage.py:402 -/
noncomputable def hydraulic_diameter_2 (crewpayload_design_num_seats_abreast_economy fuselage_num_aisles fuselage_seat_width_economy fuselage_aisle_width fuselage_pressurized_width_additional fuselage_height_to_width_ratio : ℝ) : ℝ :=
  sqrt (((body_width crewpayload_design_num_seats_abreast_economy fuselage_num_aisles
    fuselage_seat_width_economy fuselage_aisle_width fuselage_pressurized_width_additional) *
    (cabin_width crewpayload_design_num_seats_abreast_economy fuselage_num_aisles
    fuselage_seat_width_economy fuselage_aisle_width)) * fuselage_height_to_width_ratio)

/-- Output `fuselage_avg_diameter` of `BWBFuselageParameters1.compute`, aviary/subsystems/geometry/gasp_based/fuselage.py:382 -/
noncomputable def out_fuselage_avg_diameter (crewpayload_design_num_seats_abreast_economy fuselage_num_aisles fuselage_seat_width_economy fuselage_aisle_width fuselage_pressurized_width_additional : ℝ) : ℝ :=
  body_width crewpayload_design_num_seats_abreast_economy fuselage_num_aisles
    fuselage_seat_width_economy fuselage_aisle_width fuselage_pressurized_width_additional

/-- Output `fuselage_hydraulic_diameter` of `BWBFuselageParameters1.compute`, aviary/subsystems/geometry/gasp_based/fuselage.py:383 -/
noncomputable def out_fuselage_hydraulic_diameter (crewpayload_design_num_seats_abreast_economy fuselage_num_aisles fuselage_seat_width_economy fuselage_aisle_width fuselage_pressurized_width_additional fuselage_height_to_width_ratio : ℝ) : ℝ :=
  hydraulic_diameter crewpayload_design_num_seats_abreast_economy fuselage_num_aisles
    fuselage_seat_width_economy fuselage_aisle_width fuselage_pressurized_width_additional
    fuselage_height_to_width_ratio

/-- Output `cabin_height` of `BWBFuselageParameters1.compute`, aviary/subsystems/geometry/gasp_based/fuselage.py:384 -/
noncomputable def out_cabin_height (crewpayload_design_num_seats_abreast_economy fuselage_num_aisles fuselage_seat_width_economy fuselage_aisle_width fuselage_height_to_width_ratio : ℝ) : ℝ :=
  cabin_height crewpayload_design_num_seats_abreast_economy fuselage_num_aisles
    fuselage_seat_width_economy fuselage_aisle_width fuselage_height_to_width_ratio

/-- Output `nose_height` of `BWBFuselageParameters1.compute`, aviary/subsystems/geometry/gasp_based/fuselage.py:385 -/
noncomputable def out_nose_height (crewpayload_design_num_seats_abreast_economy fuselage_num_aisles fuselage_seat_width_economy fuselage_aisle_width fuselage_height_to_width_ratio fuselage_delta_diameter : ℝ) : ℝ :=
  nose_height crewpayload_design_num_seats_abreast_economy fuselage_num_aisles
    fuselage_seat_width_economy fuselage_aisle_width fuselage_height_to_width_ratio
    fuselage_delta_diameter

/-- Output `nose_length` of `BWBFuselageParameters1.compute`, aviary/subsystems/geometry/gasp_based/fuselage.py:386 -/
noncomputable def out_nose_length (crewpayload_design_num_seats_abreast_economy fuselage_num_aisles fuselage_seat_width_economy fuselage_aisle_width fuselage_height_to_width_ratio fuselage_delta_diameter fuselage_nose_fineness : ℝ) : ℝ :=
  nose_length crewpayload_design_num_seats_abreast_economy fuselage_num_aisles
    fuselage_seat_width_economy fuselage_aisle_width fuselage_height_to_width_ratio
    fuselage_delta_diameter fuselage_nose_fineness

/-- Partial of `fuselage_avg_diameter` with respect to `fuselage_pressurized_width_additional` as set by `BWBFuselageParameters1`, aviary/subsystems/geometry/gasp_based/fuselage.py:404 -/
noncomputable def J_fuselage_avg_diameter__fuselage_pressurized_width_additional : ℝ := 1

/-- Partial of `fuselage_avg_diameter` with respect to `fuselage_aisle_width` as set by `BWBFuselageParameters1`, aviary/subsystems/geometry/gasp_based/fuselage.py:405 -/
noncomputable def J_fuselage_avg_diameter__fuselage_aisle_width (fuselage_num_aisles : ℝ) : ℝ :=
  fuselage_num_aisles / 12

/-- Partial of `fuselage_avg_diameter` with respect to `fuselage_seat_width_economy` as set by `BWBFuselageParameters1`, aviary/subsystems/geometry/gasp_based/fuselage.py:406 -/
noncomputable def J_fuselage_avg_diameter__fuselage_seat_width_economy (crewpayload_design_num_seats_abreast_economy : ℝ) : ℝ :=
  crewpayload_design_num_seats_abreast_economy / 12

/-- Partial of `fuselage_hydraulic_diameter` with respect to `fuselage_pressurized_width_additional` as set by `BWBFuselageParameters1`, aviary/subsystems/geometry/gasp_based/fuselage.py:408 -/
noncomputable def J_fuselage_hydraulic_diameter__fuselage_pressurized_width_additional (crewpayload_design_num_seats_abreast_economy fuselage_num_aisles fuselage_seat_width_economy fuselage_aisle_width fuselage_pressurized_width_additional fuselage_height_to_width_ratio : ℝ) : ℝ :=
  (((1 / 2) * (cabin_width crewpayload_design_num_seats_abreast_economy fuselage_num_aisles
    fuselage_seat_width_economy fuselage_aisle_width)) * fuselage_height_to_width_ratio) /
    (hydraulic_diameter_2 crewpayload_design_num_seats_abreast_economy fuselage_num_aisles
    fuselage_seat_width_economy fuselage_aisle_width fuselage_pressurized_width_additional
    fuselage_height_to_width_ratio)

/-- Partial of `fuselage_hydraulic_diameter` with respect to `fuselage_height_to_width_ratio` as set by `BWBFuselageParameters1`, aviary/subsystems/geometry/gasp_based/fuselage.py:411 -/
noncomputable def J_fuselage_hydraulic_diameter__fuselage_height_to_width_ratio (crewpayload_design_num_seats_abreast_economy fuselage_num_aisles fuselage_seat_width_economy fuselage_aisle_width fuselage_pressurized_width_additional fuselage_height_to_width_ratio : ℝ) : ℝ :=
  (((1 / 2) * (body_width crewpayload_design_num_seats_abreast_economy fuselage_num_aisles
    fuselage_seat_width_economy fuselage_aisle_width fuselage_pressurized_width_additional)) *
    (cabin_width crewpayload_design_num_seats_abreast_economy fuselage_num_aisles
    fuselage_seat_width_economy fuselage_aisle_width)) / (hydraulic_diameter_2
    crewpayload_design_num_seats_abreast_economy fuselage_num_aisles fuselage_seat_width_economy
    fuselage_aisle_width fuselage_pressurized_width_additional fuselage_height_to_width_ratio)

/-- Partial of `fuselage_hydraulic_diameter` with respect to `fuselage_aisle_width` as set by `BWBFuselageParameters1`, aviary/subsystems/geometry/gasp_based/fuselage.py:414 -/
noncomputable def J_fuselage_hydraulic_diameter__fuselage_aisle_width (crewpayload_design_num_seats_abreast_economy fuselage_num_aisles fuselage_seat_width_economy fuselage_aisle_width fuselage_pressurized_width_additional fuselage_height_to_width_ratio : ℝ) : ℝ :=
  ((((cabin_width crewpayload_design_num_seats_abreast_economy fuselage_num_aisles
    fuselage_seat_width_economy fuselage_aisle_width) * fuselage_num_aisles) *
    fuselage_height_to_width_ratio) / (hydraulic_diameter_2
    crewpayload_design_num_seats_abreast_economy fuselage_num_aisles fuselage_seat_width_economy
    fuselage_aisle_width fuselage_pressurized_width_additional fuselage_height_to_width_ratio))
    / 12

/-- Partial of `fuselage_hydraulic_diameter` with respect to `fuselage_seat_width_economy` as set by `BWBFuselageParameters1`, aviary/subsystems/geometry/gasp_based/fuselage.py:417 -/
noncomputable def J_fuselage_hydraulic_diameter__fuselage_seat_width_economy (crewpayload_design_num_seats_abreast_economy fuselage_num_aisles fuselage_seat_width_economy fuselage_aisle_width fuselage_pressurized_width_additional fuselage_height_to_width_ratio : ℝ) : ℝ :=
  (((((1 / 2) * crewpayload_design_num_seats_abreast_economy) / 12) * ((cabin_width
    crewpayload_design_num_seats_abreast_economy fuselage_num_aisles fuselage_seat_width_economy
    fuselage_aisle_width) + (body_width crewpayload_design_num_seats_abreast_economy
    fuselage_num_aisles fuselage_seat_width_economy fuselage_aisle_width
    fuselage_pressurized_width_additional))) * fuselage_height_to_width_ratio) /
    (hydraulic_diameter_2 crewpayload_design_num_seats_abreast_economy fuselage_num_aisles
    fuselage_seat_width_economy fuselage_aisle_width fuselage_pressurized_width_additional
    fuselage_height_to_width_ratio)

/-- Partial of `cabin_height` with respect to `fuselage_height_to_width_ratio` as set by `BWBFuselageParameters1`, aviary/subsystems/geometry/gasp_based/fuselage.py:421 -/
noncomputable def J_cabin_height__fuselage_height_to_width_ratio (crewpayload_design_num_seats_abreast_economy fuselage_num_aisles fuselage_seat_width_economy fuselage_aisle_width : ℝ) : ℝ :=
  cabin_width crewpayload_design_num_seats_abreast_economy fuselage_num_aisles
    fuselage_seat_width_economy fuselage_aisle_width

/-- Partial of `cabin_height` with respect to `fuselage_aisle_width` as set by `BWBFuselageParameters1`, aviary/subsystems/geometry/gasp_based/fuselage.py:422 -/
noncomputable def J_cabin_height__fuselage_aisle_width (fuselage_num_aisles fuselage_height_to_width_ratio : ℝ) : ℝ :=
  (fuselage_num_aisles / 12) * fuselage_height_to_width_ratio

/-- Partial of `cabin_height` with respect to `fuselage_seat_width_economy` as set by `BWBFuselageParameters1`, aviary/subsystems/geometry/gasp_based/fuselage.py:423 -/
noncomputable def J_cabin_height__fuselage_seat_width_economy (crewpayload_design_num_seats_abreast_economy fuselage_height_to_width_ratio : ℝ) : ℝ :=
  (crewpayload_design_num_seats_abreast_economy / 12) * fuselage_height_to_width_ratio

/-- Partial of `nose_height` with respect to `fuselage_height_to_width_ratio` as set by `BWBFuselageParameters1`, aviary/subsystems/geometry/gasp_based/fuselage.py:427 -/
noncomputable def J_nose_height__fuselage_height_to_width_ratio (crewpayload_design_num_seats_abreast_economy fuselage_num_aisles fuselage_seat_width_economy fuselage_aisle_width : ℝ) : ℝ :=
  cabin_width crewpayload_design_num_seats_abreast_economy fuselage_num_aisles
    fuselage_seat_width_economy fuselage_aisle_width

/-- Partial of `nose_height` with respect to `fuselage_delta_diameter` as set by `BWBFuselageParameters1`, aviary/subsystems/geometry/gasp_based/fuselage.py:428 -/
noncomputable def J_nose_height__fuselage_delta_diameter : ℝ := -1

/-- Partial of `nose_height` with respect to `fuselage_aisle_width` as set by `BWBFuselageParameters1`, aviary/subsystems/geometry/gasp_based/fuselage.py:429 -/
noncomputable def J_nose_height__fuselage_aisle_width (fuselage_num_aisles fuselage_height_to_width_ratio : ℝ) : ℝ :=
  (fuselage_num_aisles / 12) * fuselage_height_to_width_ratio

/-- Partial of `nose_height` with respect to `fuselage_seat_width_economy` as set by `BWBFuselageParameters1`, aviary/subsystems/geometry/gasp_based/fuselage.py:430 -/
noncomputable def J_nose_height__fuselage_seat_width_economy (crewpayload_design_num_seats_abreast_economy fuselage_height_to_width_ratio : ℝ) : ℝ :=
  (crewpayload_design_num_seats_abreast_economy / 12) * fuselage_height_to_width_ratio

/-- Partial of `nose_length` with respect to `fuselage_height_to_width_ratio` as set by `BWBFuselageParameters1`, aviary/subsystems/geometry/gasp_based/fuselage.py:434 -/
noncomputable def J_nose_length__fuselage_height_to_width_ratio (crewpayload_design_num_seats_abreast_economy fuselage_num_aisles fuselage_seat_width_economy fuselage_aisle_width fuselage_nose_fineness : ℝ) : ℝ :=
  (cabin_width crewpayload_design_num_seats_abreast_economy fuselage_num_aisles
    fuselage_seat_width_economy fuselage_aisle_width) * fuselage_nose_fineness

/-- Partial of `nose_length` with respect to `fuselage_delta_diameter` as set by `BWBFuselageParameters1`, aviary/subsystems/geometry/gasp_based/fuselage.py:435 -/
noncomputable def J_nose_length__fuselage_delta_diameter (fuselage_nose_fineness : ℝ) : ℝ :=
  -fuselage_nose_fineness

/-- Partial of `nose_length` with respect to `fuselage_nose_fineness` as set by `BWBFuselageParameters1`, aviary/subsystems/geometry/gasp_based/fuselage.py:436 -/
noncomputable def J_nose_length__fuselage_nose_fineness (crewpayload_design_num_seats_abreast_economy fuselage_num_aisles fuselage_seat_width_economy fuselage_aisle_width fuselage_height_to_width_ratio fuselage_delta_diameter : ℝ) : ℝ :=
  ((cabin_width crewpayload_design_num_seats_abreast_economy fuselage_num_aisles
    fuselage_seat_width_economy fuselage_aisle_width) * fuselage_height_to_width_ratio) -
    fuselage_delta_diameter

/-- Partial of `nose_length` with respect to `fuselage_aisle_width` as set by `BWBFuselageParameters1`, aviary/subsystems/geometry/gasp_based/fuselage.py:439 -/
noncomputable def J_nose_length__fuselage_aisle_width (fuselage_num_aisles fuselage_height_to_width_ratio fuselage_nose_fineness : ℝ) : ℝ :=
  ((fuselage_num_aisles / 12) * fuselage_height_to_width_ratio) * fuselage_nose_fineness

/-- Partial of `nose_length` with respect to `fuselage_seat_width_economy` as set by `BWBFuselageParameters1`, aviary/subsystems/geometry/gasp_based/fuselage.py:442 -/
noncomputable def J_nose_length__fuselage_seat_width_economy (crewpayload_design_num_seats_abreast_economy fuselage_height_to_width_ratio fuselage_nose_fineness : ℝ) : ℝ :=
  ((crewpayload_design_num_seats_abreast_economy / 12) * fuselage_height_to_width_ratio) *
    fuselage_nose_fineness

theorem d_fuselage_avg_diameter__fuselage_seat_width_economy
    (crewpayload_design_num_seats_abreast_economy fuselage_num_aisles fuselage_seat_width_economy
    fuselage_aisle_width fuselage_pressurized_width_additional : ℝ)  :
    HasDerivAt (fun t => out_fuselage_avg_diameter crewpayload_design_num_seats_abreast_economy fuselage_num_aisles t fuselage_aisle_width fuselage_pressurized_width_additional) (J_fuselage_avg_diameter__fuselage_seat_width_economy crewpayload_design_num_seats_abreast_economy) fuselage_seat_width_economy := by
  simp only [out_fuselage_avg_diameter, J_fuselage_avg_diameter__fuselage_seat_width_economy, body_width, cabin_width]
  (apply hasDerivAt_of_eq; on_goal 1 => (repeat' comp_step))
  all_goals try comp_side
  all_goals try simp only [mul_zero, zero_mul, add_zero, zero_add, sub_zero, zero_sub, mul_one, one_mul]
  all_goals try push_cast
  all_goals comp_eq

theorem d_fuselage_avg_diameter__fuselage_aisle_width
    (crewpayload_design_num_seats_abreast_economy fuselage_num_aisles fuselage_seat_width_economy
    fuselage_aisle_width fuselage_pressurized_width_additional : ℝ)  :
    HasDerivAt (fun t => out_fuselage_avg_diameter crewpayload_design_num_seats_abreast_economy fuselage_num_aisles fuselage_seat_width_economy t fuselage_pressurized_width_additional) (J_fuselage_avg_diameter__fuselage_aisle_width fuselage_num_aisles) fuselage_aisle_width := by
  simp only [out_fuselage_avg_diameter, J_fuselage_avg_diameter__fuselage_aisle_width, body_width, cabin_width]
  (apply hasDerivAt_of_eq; on_goal 1 => (repeat' comp_step))
  all_goals try comp_side
  all_goals try simp only [mul_zero, zero_mul, add_zero, zero_add, sub_zero, zero_sub, mul_one, one_mul]
  all_goals try push_cast
  all_goals comp_eq

theorem d_fuselage_avg_diameter__fuselage_pressurized_width_additional
    (crewpayload_design_num_seats_abreast_economy fuselage_num_aisles fuselage_seat_width_economy
    fuselage_aisle_width fuselage_pressurized_width_additional : ℝ)  :
    HasDerivAt (fun t => out_fuselage_avg_diameter crewpayload_design_num_seats_abreast_economy fuselage_num_aisles fuselage_seat_width_economy fuselage_aisle_width t) (J_fuselage_avg_diameter__fuselage_pressurized_width_additional) fuselage_pressurized_width_additional := by
  simp only [out_fuselage_avg_diameter, J_fuselage_avg_diameter__fuselage_pressurized_width_additional, body_width, cabin_width]
  (apply hasDerivAt_of_eq; on_goal 1 => (repeat' comp_step))
  all_goals try comp_side
  all_goals try simp only [mul_zero, zero_mul, add_zero, zero_add, sub_zero, zero_sub, mul_one, one_mul]
  all_goals try push_cast
  all_goals comp_eq

theorem d_fuselage_hydraulic_diameter__fuselage_seat_width_economy
    (crewpayload_design_num_seats_abreast_economy fuselage_num_aisles fuselage_seat_width_economy
    fuselage_aisle_width fuselage_pressurized_width_additional fuselage_height_to_width_ratio : ℝ)
    (h0 : 0 < crewpayload_design_num_seats_abreast_economy) (h1 : 0 < fuselage_seat_width_economy)
    (h2 : 0 < fuselage_num_aisles) (h3 : 0 < fuselage_aisle_width) (h4 : 0 <
    fuselage_pressurized_width_additional) (h5 : 0 < fuselage_height_to_width_ratio) :
    HasDerivAt (fun t => out_fuselage_hydraulic_diameter crewpayload_design_num_seats_abreast_economy fuselage_num_aisles t fuselage_aisle_width fuselage_pressurized_width_additional fuselage_height_to_width_ratio) (J_fuselage_hydraulic_diameter__fuselage_seat_width_economy crewpayload_design_num_seats_abreast_economy fuselage_num_aisles fuselage_seat_width_economy fuselage_aisle_width fuselage_pressurized_width_additional fuselage_height_to_width_ratio) fuselage_seat_width_economy := by
  simp only [out_fuselage_hydraulic_diameter, J_fuselage_hydraulic_diameter__fuselage_seat_width_economy, hydraulic_diameter_2, hydraulic_diameter, fuselage_cross_area, cabin_height, body_width, cabin_width, sqrt_eq_rpow]
  (apply hasDerivAt_of_eq; on_goal 1 => (repeat' comp_step))
  all_goals try comp_side
  all_goals try simp (disch := first | assumption | positivity) only [div_mul_eq_div_div, div_half, inv_half]
  all_goals try simp only [mul_zero, zero_mul, add_zero, zero_add, sub_zero, zero_sub, mul_one, one_mul]
  all_goals try push_cast
  all_goals comp_eq

theorem d_fuselage_hydraulic_diameter__fuselage_pressurized_width_additional
    (crewpayload_design_num_seats_abreast_economy fuselage_num_aisles fuselage_seat_width_economy
    fuselage_aisle_width fuselage_pressurized_width_additional fuselage_height_to_width_ratio : ℝ)
    (h0 : 0 < crewpayload_design_num_seats_abreast_economy) (h1 : 0 < fuselage_seat_width_economy)
    (h2 : 0 < fuselage_num_aisles) (h3 : 0 < fuselage_aisle_width) (h4 : 0 <
    fuselage_pressurized_width_additional) (h5 : 0 < fuselage_height_to_width_ratio) :
    HasDerivAt (fun t => out_fuselage_hydraulic_diameter crewpayload_design_num_seats_abreast_economy fuselage_num_aisles fuselage_seat_width_economy fuselage_aisle_width t fuselage_height_to_width_ratio) (J_fuselage_hydraulic_diameter__fuselage_pressurized_width_additional crewpayload_design_num_seats_abreast_economy fuselage_num_aisles fuselage_seat_width_economy fuselage_aisle_width fuselage_pressurized_width_additional fuselage_height_to_width_ratio) fuselage_pressurized_width_additional := by
  simp only [out_fuselage_hydraulic_diameter, J_fuselage_hydraulic_diameter__fuselage_pressurized_width_additional, hydraulic_diameter_2, hydraulic_diameter, fuselage_cross_area, cabin_height, body_width, cabin_width, sqrt_eq_rpow]
  (apply hasDerivAt_of_eq; on_goal 1 => (repeat' comp_step))
  all_goals try comp_side
  all_goals try simp (disch := first | assumption | positivity) only [div_mul_eq_div_div, div_half, inv_half]
  all_goals try simp only [mul_zero, zero_mul, add_zero, zero_add, sub_zero, zero_sub, mul_one, one_mul]
  all_goals try push_cast
  all_goals comp_eq

theorem d_fuselage_hydraulic_diameter__fuselage_height_to_width_ratio
    (crewpayload_design_num_seats_abreast_economy fuselage_num_aisles fuselage_seat_width_economy
    fuselage_aisle_width fuselage_pressurized_width_additional fuselage_height_to_width_ratio : ℝ)
    (h0 : 0 < crewpayload_design_num_seats_abreast_economy) (h1 : 0 < fuselage_seat_width_economy)
    (h2 : 0 < fuselage_num_aisles) (h3 : 0 < fuselage_aisle_width) (h4 : 0 <
    fuselage_pressurized_width_additional) (h5 : 0 < fuselage_height_to_width_ratio) :
    HasDerivAt (fun t => out_fuselage_hydraulic_diameter crewpayload_design_num_seats_abreast_economy fuselage_num_aisles fuselage_seat_width_economy fuselage_aisle_width fuselage_pressurized_width_additional t) (J_fuselage_hydraulic_diameter__fuselage_height_to_width_ratio crewpayload_design_num_seats_abreast_economy fuselage_num_aisles fuselage_seat_width_economy fuselage_aisle_width fuselage_pressurized_width_additional fuselage_height_to_width_ratio) fuselage_height_to_width_ratio := by
  simp only [out_fuselage_hydraulic_diameter, J_fuselage_hydraulic_diameter__fuselage_height_to_width_ratio, hydraulic_diameter_2, hydraulic_diameter, fuselage_cross_area, cabin_height, body_width, cabin_width, sqrt_eq_rpow]
  (apply hasDerivAt_of_eq; on_goal 1 => (repeat' comp_step))
  all_goals try comp_side
  all_goals try simp (disch := first | assumption | positivity) only [div_mul_eq_div_div, div_half, inv_half]
  all_goals try simp only [mul_zero, zero_mul, add_zero, zero_add, sub_zero, zero_sub, mul_one, one_mul]
  all_goals try push_cast
  all_goals comp_eq

theorem d_cabin_height__fuselage_seat_width_economy (crewpayload_design_num_seats_abreast_economy
    fuselage_num_aisles fuselage_seat_width_economy fuselage_aisle_width
    fuselage_height_to_width_ratio : ℝ)  :
    HasDerivAt (fun t => out_cabin_height crewpayload_design_num_seats_abreast_economy fuselage_num_aisles t fuselage_aisle_width fuselage_height_to_width_ratio) (J_cabin_height__fuselage_seat_width_economy crewpayload_design_num_seats_abreast_economy fuselage_height_to_width_ratio) fuselage_seat_width_economy := by
  simp only [out_cabin_height, J_cabin_height__fuselage_seat_width_economy, cabin_height, cabin_width]
  (apply hasDerivAt_of_eq; on_goal 1 => (repeat' comp_step))
  all_goals try comp_side
  all_goals try simp only [mul_zero, zero_mul, add_zero, zero_add, sub_zero, zero_sub, mul_one, one_mul]
  all_goals try push_cast
  all_goals comp_eq

theorem d_cabin_height__fuselage_aisle_width (crewpayload_design_num_seats_abreast_economy
    fuselage_num_aisles fuselage_seat_width_economy fuselage_aisle_width
    fuselage_height_to_width_ratio : ℝ)  :
    HasDerivAt (fun t => out_cabin_height crewpayload_design_num_seats_abreast_economy fuselage_num_aisles fuselage_seat_width_economy t fuselage_height_to_width_ratio) (J_cabin_height__fuselage_aisle_width fuselage_num_aisles fuselage_height_to_width_ratio) fuselage_aisle_width := by
  simp only [out_cabin_height, J_cabin_height__fuselage_aisle_width, cabin_height, cabin_width]
  (apply hasDerivAt_of_eq; on_goal 1 => (repeat' comp_step))
  all_goals try comp_side
  all_goals try simp only [mul_zero, zero_mul, add_zero, zero_add, sub_zero, zero_sub, mul_one, one_mul]
  all_goals try push_cast
  all_goals comp_eq

theorem d_cabin_height__fuselage_height_to_width_ratio
    (crewpayload_design_num_seats_abreast_economy fuselage_num_aisles fuselage_seat_width_economy
    fuselage_aisle_width fuselage_height_to_width_ratio : ℝ)  :
    HasDerivAt (fun t => out_cabin_height crewpayload_design_num_seats_abreast_economy fuselage_num_aisles fuselage_seat_width_economy fuselage_aisle_width t) (J_cabin_height__fuselage_height_to_width_ratio crewpayload_design_num_seats_abreast_economy fuselage_num_aisles fuselage_seat_width_economy fuselage_aisle_width) fuselage_height_to_width_ratio := by
  simp only [out_cabin_height, J_cabin_height__fuselage_height_to_width_ratio, cabin_height, cabin_width]
  (apply hasDerivAt_of_eq; on_goal 1 => (repeat' comp_step))
  all_goals try comp_side
  all_goals try simp only [mul_zero, zero_mul, add_zero, zero_add, sub_zero, zero_sub, mul_one, one_mul]
  all_goals try push_cast
  all_goals comp_eq

theorem d_nose_height__fuselage_seat_width_economy (crewpayload_design_num_seats_abreast_economy
    fuselage_num_aisles fuselage_seat_width_economy fuselage_aisle_width
    fuselage_height_to_width_ratio fuselage_delta_diameter : ℝ)  :
    HasDerivAt (fun t => out_nose_height crewpayload_design_num_seats_abreast_economy fuselage_num_aisles t fuselage_aisle_width fuselage_height_to_width_ratio fuselage_delta_diameter) (J_nose_height__fuselage_seat_width_economy crewpayload_design_num_seats_abreast_economy fuselage_height_to_width_ratio) fuselage_seat_width_economy := by
  simp only [out_nose_height, J_nose_height__fuselage_seat_width_economy, nose_height, cabin_height, cabin_width]
  (apply hasDerivAt_of_eq; on_goal 1 => (repeat' comp_step))
  all_goals try comp_side
  all_goals try simp only [mul_zero, zero_mul, add_zero, zero_add, sub_zero, zero_sub, mul_one, one_mul]
  all_goals try push_cast
  all_goals comp_eq

theorem d_nose_height__fuselage_aisle_width (crewpayload_design_num_seats_abreast_economy
    fuselage_num_aisles fuselage_seat_width_economy fuselage_aisle_width
    fuselage_height_to_width_ratio fuselage_delta_diameter : ℝ)  :
    HasDerivAt (fun t => out_nose_height crewpayload_design_num_seats_abreast_economy fuselage_num_aisles fuselage_seat_width_economy t fuselage_height_to_width_ratio fuselage_delta_diameter) (J_nose_height__fuselage_aisle_width fuselage_num_aisles fuselage_height_to_width_ratio) fuselage_aisle_width := by
  simp only [out_nose_height, J_nose_height__fuselage_aisle_width, nose_height, cabin_height, cabin_width]
  (apply hasDerivAt_of_eq; on_goal 1 => (repeat' comp_step))
  all_goals try comp_side
  all_goals try simp only [mul_zero, zero_mul, add_zero, zero_add, sub_zero, zero_sub, mul_one, one_mul]
  all_goals try push_cast
  all_goals comp_eq

theorem d_nose_height__fuselage_height_to_width_ratio
    (crewpayload_design_num_seats_abreast_economy fuselage_num_aisles fuselage_seat_width_economy
    fuselage_aisle_width fuselage_height_to_width_ratio fuselage_delta_diameter : ℝ)  :
    HasDerivAt (fun t => out_nose_height crewpayload_design_num_seats_abreast_economy fuselage_num_aisles fuselage_seat_width_economy fuselage_aisle_width t fuselage_delta_diameter) (J_nose_height__fuselage_height_to_width_ratio crewpayload_design_num_seats_abreast_economy fuselage_num_aisles fuselage_seat_width_economy fuselage_aisle_width) fuselage_height_to_width_ratio := by
  simp only [out_nose_height, J_nose_height__fuselage_height_to_width_ratio, nose_height, cabin_height, cabin_width]
  (apply hasDerivAt_of_eq; on_goal 1 => (repeat' comp_step))
  all_goals try comp_side
  all_goals try simp only [mul_zero, zero_mul, add_zero, zero_add, sub_zero, zero_sub, mul_one, one_mul]
  all_goals try push_cast
  all_goals comp_eq

theorem d_nose_height__fuselage_delta_diameter (crewpayload_design_num_seats_abreast_economy
    fuselage_num_aisles fuselage_seat_width_economy fuselage_aisle_width
    fuselage_height_to_width_ratio fuselage_delta_diameter : ℝ)  :
    HasDerivAt (fun t => out_nose_height crewpayload_design_num_seats_abreast_economy fuselage_num_aisles fuselage_seat_width_economy fuselage_aisle_width fuselage_height_to_width_ratio t) (J_nose_height__fuselage_delta_diameter) fuselage_delta_diameter := by
  simp only [out_nose_height, J_nose_height__fuselage_delta_diameter, nose_height, cabin_height, cabin_width]
  (apply hasDerivAt_of_eq; on_goal 1 => (repeat' comp_step))
  all_goals try comp_side
  all_goals try simp only [mul_zero, zero_mul, add_zero, zero_add, sub_zero, zero_sub, mul_one, one_mul]
  all_goals try push_cast
  all_goals comp_eq

theorem d_nose_length__fuselage_seat_width_economy (crewpayload_design_num_seats_abreast_economy
    fuselage_num_aisles fuselage_seat_width_economy fuselage_aisle_width
    fuselage_height_to_width_ratio fuselage_delta_diameter fuselage_nose_fineness : ℝ)  :
    HasDerivAt (fun t => out_nose_length crewpayload_design_num_seats_abreast_economy fuselage_num_aisles t fuselage_aisle_width fuselage_height_to_width_ratio fuselage_delta_diameter fuselage_nose_fineness) (J_nose_length__fuselage_seat_width_economy crewpayload_design_num_seats_abreast_economy fuselage_height_to_width_ratio fuselage_nose_fineness) fuselage_seat_width_economy := by
  simp only [out_nose_length, J_nose_length__fuselage_seat_width_economy, nose_length, nose_height, cabin_height, cabin_width]
  (apply hasDerivAt_of_eq; on_goal 1 => (repeat' comp_step))
  all_goals try comp_side
  all_goals try simp only [mul_zero, zero_mul, add_zero, zero_add, sub_zero, zero_sub, mul_one, one_mul]
  all_goals try push_cast
  all_goals comp_eq

theorem d_nose_length__fuselage_aisle_width (crewpayload_design_num_seats_abreast_economy
    fuselage_num_aisles fuselage_seat_width_economy fuselage_aisle_width
    fuselage_height_to_width_ratio fuselage_delta_diameter fuselage_nose_fineness : ℝ)  :
    HasDerivAt (fun t => out_nose_length crewpayload_design_num_seats_abreast_economy fuselage_num_aisles fuselage_seat_width_economy t fuselage_height_to_width_ratio fuselage_delta_diameter fuselage_nose_fineness) (J_nose_length__fuselage_aisle_width fuselage_num_aisles fuselage_height_to_width_ratio fuselage_nose_fineness) fuselage_aisle_width := by
  simp only [out_nose_length, J_nose_length__fuselage_aisle_width, nose_length, nose_height, cabin_height, cabin_width]
  (apply hasDerivAt_of_eq; on_goal 1 => (repeat' comp_step))
  all_goals try comp_side
  all_goals try simp only [mul_zero, zero_mul, add_zero, zero_add, sub_zero, zero_sub, mul_one, one_mul]
  all_goals try push_cast
  all_goals comp_eq

theorem d_nose_length__fuselage_height_to_width_ratio
    (crewpayload_design_num_seats_abreast_economy fuselage_num_aisles fuselage_seat_width_economy
    fuselage_aisle_width fuselage_height_to_width_ratio fuselage_delta_diameter
    fuselage_nose_fineness : ℝ)  :
    HasDerivAt (fun t => out_nose_length crewpayload_design_num_seats_abreast_economy fuselage_num_aisles fuselage_seat_width_economy fuselage_aisle_width t fuselage_delta_diameter fuselage_nose_fineness) (J_nose_length__fuselage_height_to_width_ratio crewpayload_design_num_seats_abreast_economy fuselage_num_aisles fuselage_seat_width_economy fuselage_aisle_width fuselage_nose_fineness) fuselage_height_to_width_ratio := by
  simp only [out_nose_length, J_nose_length__fuselage_height_to_width_ratio, nose_length, nose_height, cabin_height, cabin_width]
  (apply hasDerivAt_of_eq; on_goal 1 => (repeat' comp_step))
  all_goals try comp_side
  all_goals try simp only [mul_zero, zero_mul, add_zero, zero_add, sub_zero, zero_sub, mul_one, one_mul]
  all_goals try push_cast
  all_goals comp_eq

theorem d_nose_length__fuselage_delta_diameter (crewpayload_design_num_seats_abreast_economy
    fuselage_num_aisles fuselage_seat_width_economy fuselage_aisle_width
    fuselage_height_to_width_ratio fuselage_delta_diameter fuselage_nose_fineness : ℝ)  :
    HasDerivAt (fun t => out_nose_length crewpayload_design_num_seats_abreast_economy fuselage_num_aisles fuselage_seat_width_economy fuselage_aisle_width fuselage_height_to_width_ratio t fuselage_nose_fineness) (J_nose_length__fuselage_delta_diameter fuselage_nose_fineness) fuselage_delta_diameter := by
  simp only [out_nose_length, J_nose_length__fuselage_delta_diameter, nose_length, nose_height, cabin_height, cabin_width]
  (apply hasDerivAt_of_eq; on_goal 1 => (repeat' comp_step))
  all_goals try comp_side
  all_goals try simp only [mul_zero, zero_mul, add_zero, zero_add, sub_zero, zero_sub, mul_one, one_mul]
  all_goals try push_cast
  all_goals comp_eq

theorem d_nose_length__fuselage_nose_fineness (crewpayload_design_num_seats_abreast_economy
    fuselage_num_aisles fuselage_seat_width_economy fuselage_aisle_width
    fuselage_height_to_width_ratio fuselage_delta_diameter fuselage_nose_fineness : ℝ)  :
    HasDerivAt (fun t => out_nose_length crewpayload_design_num_seats_abreast_economy fuselage_num_aisles fuselage_seat_width_economy fuselage_aisle_width fuselage_height_to_width_ratio fuselage_delta_diameter t) (J_nose_length__fuselage_nose_fineness crewpayload_design_num_seats_abreast_economy fuselage_num_aisles fuselage_seat_width_economy fuselage_aisle_width fuselage_height_to_width_ratio fuselage_delta_diameter) fuselage_nose_fineness := by
  simp only [out_nose_length, J_nose_length__fuselage_nose_fineness, nose_length, nose_height, cabin_height, cabin_width]
  (apply hasDerivAt_of_eq; on_goal 1 => (repeat' comp_step))
  all_goals try comp_side
  all_goals try simp only [mul_zero, zero_mul, add_zero, zero_add, sub_zero, zero_sub, mul_one, one_mul]
  all_goals try push_cast
  all_goals comp_eq

/-- Partial derivatives of `BWBFuselageParameters1` that are proved correct (the rest is listed in the header). -/
theorem partials_partial (crewpayload_design_num_seats_abreast_economy fuselage_num_aisles
    fuselage_seat_width_economy fuselage_aisle_width fuselage_pressurized_width_additional
    fuselage_height_to_width_ratio fuselage_delta_diameter fuselage_nose_fineness : ℝ) (h0 : 0 <
    crewpayload_design_num_seats_abreast_economy) (h1 : 0 < fuselage_seat_width_economy) (h2 : 0 <
    fuselage_num_aisles) (h3 : 0 < fuselage_aisle_width) (h4 : 0 <
    fuselage_pressurized_width_additional) (h5 : 0 < fuselage_height_to_width_ratio) :
    HasDerivAt (fun t => out_fuselage_avg_diameter crewpayload_design_num_seats_abreast_economy
      fuselage_num_aisles t fuselage_aisle_width fuselage_pressurized_width_additional)
      (J_fuselage_avg_diameter__fuselage_seat_width_economy
      crewpayload_design_num_seats_abreast_economy) fuselage_seat_width_economy ∧
    HasDerivAt (fun t => out_fuselage_avg_diameter crewpayload_design_num_seats_abreast_economy
      fuselage_num_aisles fuselage_seat_width_economy t fuselage_pressurized_width_additional)
      (J_fuselage_avg_diameter__fuselage_aisle_width fuselage_num_aisles) fuselage_aisle_width ∧
    HasDerivAt (fun t => out_fuselage_avg_diameter crewpayload_design_num_seats_abreast_economy
      fuselage_num_aisles fuselage_seat_width_economy fuselage_aisle_width t)
      (J_fuselage_avg_diameter__fuselage_pressurized_width_additional)
      fuselage_pressurized_width_additional ∧
    HasDerivAt (fun t => out_fuselage_hydraulic_diameter crewpayload_design_num_seats_abreast_economy
      fuselage_num_aisles t fuselage_aisle_width fuselage_pressurized_width_additional
      fuselage_height_to_width_ratio) (J_fuselage_hydraulic_diameter__fuselage_seat_width_economy
      crewpayload_design_num_seats_abreast_economy fuselage_num_aisles fuselage_seat_width_economy
      fuselage_aisle_width fuselage_pressurized_width_additional fuselage_height_to_width_ratio)
      fuselage_seat_width_economy ∧
    HasDerivAt (fun t => out_fuselage_hydraulic_diameter crewpayload_design_num_seats_abreast_economy
      fuselage_num_aisles fuselage_seat_width_economy fuselage_aisle_width t
      fuselage_height_to_width_ratio)
      (J_fuselage_hydraulic_diameter__fuselage_pressurized_width_additional
      crewpayload_design_num_seats_abreast_economy fuselage_num_aisles fuselage_seat_width_economy
      fuselage_aisle_width fuselage_pressurized_width_additional fuselage_height_to_width_ratio)
      fuselage_pressurized_width_additional ∧
    HasDerivAt (fun t => out_fuselage_hydraulic_diameter crewpayload_design_num_seats_abreast_economy
      fuselage_num_aisles fuselage_seat_width_economy fuselage_aisle_width
      fuselage_pressurized_width_additional t)
      (J_fuselage_hydraulic_diameter__fuselage_height_to_width_ratio
      crewpayload_design_num_seats_abreast_economy fuselage_num_aisles fuselage_seat_width_economy
      fuselage_aisle_width fuselage_pressurized_width_additional fuselage_height_to_width_ratio)
      fuselage_height_to_width_ratio ∧
    HasDerivAt (fun t => out_cabin_height crewpayload_design_num_seats_abreast_economy
      fuselage_num_aisles t fuselage_aisle_width fuselage_height_to_width_ratio)
      (J_cabin_height__fuselage_seat_width_economy crewpayload_design_num_seats_abreast_economy
      fuselage_height_to_width_ratio) fuselage_seat_width_economy ∧
    HasDerivAt (fun t => out_cabin_height crewpayload_design_num_seats_abreast_economy
      fuselage_num_aisles fuselage_seat_width_economy t fuselage_height_to_width_ratio)
      (J_cabin_height__fuselage_aisle_width fuselage_num_aisles fuselage_height_to_width_ratio)
      fuselage_aisle_width ∧
    HasDerivAt (fun t => out_cabin_height crewpayload_design_num_seats_abreast_economy
      fuselage_num_aisles fuselage_seat_width_economy fuselage_aisle_width t)
      (J_cabin_height__fuselage_height_to_width_ratio crewpayload_design_num_seats_abreast_economy
      fuselage_num_aisles fuselage_seat_width_economy fuselage_aisle_width)
      fuselage_height_to_width_ratio ∧
    HasDerivAt (fun t => out_nose_height crewpayload_design_num_seats_abreast_economy
      fuselage_num_aisles t fuselage_aisle_width fuselage_height_to_width_ratio
      fuselage_delta_diameter) (J_nose_height__fuselage_seat_width_economy
      crewpayload_design_num_seats_abreast_economy fuselage_height_to_width_ratio)
      fuselage_seat_width_economy ∧
    HasDerivAt (fun t => out_nose_height crewpayload_design_num_seats_abreast_economy
      fuselage_num_aisles fuselage_seat_width_economy t fuselage_height_to_width_ratio
      fuselage_delta_diameter) (J_nose_height__fuselage_aisle_width fuselage_num_aisles
      fuselage_height_to_width_ratio) fuselage_aisle_width ∧
    HasDerivAt (fun t => out_nose_height crewpayload_design_num_seats_abreast_economy
      fuselage_num_aisles fuselage_seat_width_economy fuselage_aisle_width t
      fuselage_delta_diameter) (J_nose_height__fuselage_height_to_width_ratio
      crewpayload_design_num_seats_abreast_economy fuselage_num_aisles fuselage_seat_width_economy
      fuselage_aisle_width) fuselage_height_to_width_ratio ∧
    HasDerivAt (fun t => out_nose_height crewpayload_design_num_seats_abreast_economy
      fuselage_num_aisles fuselage_seat_width_economy fuselage_aisle_width
      fuselage_height_to_width_ratio t) (J_nose_height__fuselage_delta_diameter)
      fuselage_delta_diameter ∧
    HasDerivAt (fun t => out_nose_length crewpayload_design_num_seats_abreast_economy
      fuselage_num_aisles t fuselage_aisle_width fuselage_height_to_width_ratio
      fuselage_delta_diameter fuselage_nose_fineness) (J_nose_length__fuselage_seat_width_economy
      crewpayload_design_num_seats_abreast_economy fuselage_height_to_width_ratio
      fuselage_nose_fineness) fuselage_seat_width_economy ∧
    HasDerivAt (fun t => out_nose_length crewpayload_design_num_seats_abreast_economy
      fuselage_num_aisles fuselage_seat_width_economy t fuselage_height_to_width_ratio
      fuselage_delta_diameter fuselage_nose_fineness) (J_nose_length__fuselage_aisle_width
      fuselage_num_aisles fuselage_height_to_width_ratio fuselage_nose_fineness)
      fuselage_aisle_width ∧
    HasDerivAt (fun t => out_nose_length crewpayload_design_num_seats_abreast_economy
      fuselage_num_aisles fuselage_seat_width_economy fuselage_aisle_width t
      fuselage_delta_diameter fuselage_nose_fineness)
      (J_nose_length__fuselage_height_to_width_ratio crewpayload_design_num_seats_abreast_economy
      fuselage_num_aisles fuselage_seat_width_economy fuselage_aisle_width fuselage_nose_fineness)
      fuselage_height_to_width_ratio ∧
    HasDerivAt (fun t => out_nose_length crewpayload_design_num_seats_abreast_economy
      fuselage_num_aisles fuselage_seat_width_economy fuselage_aisle_width
      fuselage_height_to_width_ratio t fuselage_nose_fineness)
      (J_nose_length__fuselage_delta_diameter fuselage_nose_fineness) fuselage_delta_diameter ∧
    HasDerivAt (fun t => out_nose_length crewpayload_design_num_seats_abreast_economy
      fuselage_num_aisles fuselage_seat_width_economy fuselage_aisle_width
      fuselage_height_to_width_ratio fuselage_delta_diameter t)
      (J_nose_length__fuselage_nose_fineness crewpayload_design_num_seats_abreast_economy
      fuselage_num_aisles fuselage_seat_width_economy fuselage_aisle_width
      fuselage_height_to_width_ratio fuselage_delta_diameter) fuselage_nose_fineness :=
  ⟨d_fuselage_avg_diameter__fuselage_seat_width_economy _ _ _ _ _,
    d_fuselage_avg_diameter__fuselage_aisle_width _ _ _ _ _,
    d_fuselage_avg_diameter__fuselage_pressurized_width_additional _ _ _ _ _,
    d_fuselage_hydraulic_diameter__fuselage_seat_width_economy _ _ _ _ _ _ h0 h1 h2 h3 h4 h5,
    d_fuselage_hydraulic_diameter__fuselage_pressurized_width_additional _ _ _ _ _ _ h0 h1 h2 h3
    h4 h5, d_fuselage_hydraulic_diameter__fuselage_height_to_width_ratio _ _ _ _ _ _ h0 h1 h2 h3
    h4 h5, d_cabin_height__fuselage_seat_width_economy _ _ _ _ _,
    d_cabin_height__fuselage_aisle_width _ _ _ _ _, d_cabin_height__fuselage_height_to_width_ratio
    _ _ _ _ _, d_nose_height__fuselage_seat_width_economy _ _ _ _ _ _,
    d_nose_height__fuselage_aisle_width _ _ _ _ _ _, d_nose_height__fuselage_height_to_width_ratio
    _ _ _ _ _ _, d_nose_height__fuselage_delta_diameter _ _ _ _ _ _,
    d_nose_length__fuselage_seat_width_economy _ _ _ _ _ _ _, d_nose_length__fuselage_aisle_width
    _ _ _ _ _ _ _, d_nose_length__fuselage_height_to_width_ratio _ _ _ _ _ _ _,
    d_nose_length__fuselage_delta_diameter _ _ _ _ _ _ _, d_nose_length__fuselage_nose_fineness _
    _ _ _ _ _ _⟩

example : ∃ crewpayload_design_num_seats_abreast_economy fuselage_num_aisles
      fuselage_seat_width_economy fuselage_aisle_width fuselage_pressurized_width_additional
      fuselage_height_to_width_ratio fuselage_delta_diameter fuselage_nose_fineness : ℝ,
      0 < crewpayload_design_num_seats_abreast_economy ∧
      0 < fuselage_seat_width_economy ∧
      0 < fuselage_num_aisles ∧
      0 < fuselage_aisle_width ∧
      0 < fuselage_pressurized_width_additional ∧
      0 < fuselage_height_to_width_ratio :=
  ⟨1, 1, 1, 1, 1, 1, 0, 0, by comp_example, by comp_example, by comp_example, by comp_example, by
    comp_example, by comp_example⟩

end Verif.Comp.GeometryGaspBasedFuselage.BWBFuselageParameters1

namespace Verif.Comp.GeometryGaspBasedFuselage.BWBFuselageParameters2
open Real

/-- aviary/subsystems/geometry/gasp_based/fuselage.py:797 -/
noncomputable def rad2deg : ℝ := 180 / π

/-- aviary/subsystems/geometry/gasp_based/fuselage.py:808 -/
noncomputable def cabin_width (fuselage_avg_diameter fuselage_pressurized_width_additional : ℝ) : ℝ :=
  fuselage_avg_diameter - fuselage_pressurized_width_additional

/-- aviary/subsystems/geometry/gasp_based/fuselage.py:809 -/
noncomputable def forebody_len (bwb_passenger_leading_edge_sweep fuselage_avg_diameter fuselage_pressurized_width_additional : ℝ) : ℝ :=
  ((1 / 2) * (cabin_width fuselage_avg_diameter fuselage_pressurized_width_additional)) * (tan
    (bwb_passenger_leading_edge_sweep / rad2deg))

/-- aviary/subsystems/geometry/gasp_based/fuselage.py:810 -/
noncomputable def nose_width (bwb_passenger_leading_edge_sweep nose_length : ℝ) : ℝ :=
  (2 * nose_length) / (tan (bwb_passenger_leading_edge_sweep / rad2deg))

/-- aviary/subsystems/geometry/gasp_based/fuselage.py:811 -/
noncomputable def aftbody_len (fuselage_tail_fineness cabin_height : ℝ) : ℝ :=
  fuselage_tail_fineness * cabin_height

/-- aviary/subsystems/geometry/gasp_based/fuselage.py:812 -/
noncomputable def cabin_len (fuselage_pilot_compartment_length nose_length fuselage_station_aft : ℝ) : ℝ :=
  (fuselage_station_aft - nose_length) - fuselage_pilot_compartment_length

/-- aviary/subsystems/geometry/gasp_based/fuselage.py:814 -/
noncomputable def area_nose_planform (bwb_passenger_leading_edge_sweep nose_length : ℝ) : ℝ :=
  ((1 / 2) * nose_length) * (nose_width bwb_passenger_leading_edge_sweep nose_length)

/-- aviary/subsystems/geometry/gasp_based/fuselage.py:815 -/
noncomputable def area_aftbody_planform (fuselage_avg_diameter fuselage_pressurized_width_additional fuselage_tail_fineness cabin_height : ℝ) : ℝ :=
  ((aftbody_len fuselage_tail_fineness cabin_height) * ((cabin_width fuselage_avg_diameter
    fuselage_pressurized_width_additional) + fuselage_avg_diameter)) / 2

/-- aviary/subsystems/geometry/gasp_based/fuselage.py:816 -/
noncomputable def area_forebody (bwb_passenger_leading_edge_sweep fuselage_avg_diameter fuselage_pressurized_width_additional nose_length : ℝ) : ℝ :=
  (((forebody_len bwb_passenger_leading_edge_sweep fuselage_avg_diameter
    fuselage_pressurized_width_additional) - nose_length) * (fuselage_avg_diameter + (nose_width
    bwb_passenger_leading_edge_sweep nose_length))) / 2

/-- aviary/subsystems/geometry/gasp_based/fuselage.py:817 -/
noncomputable def area_aftbody (bwb_passenger_leading_edge_sweep fuselage_avg_diameter fuselage_pressurized_width_additional fuselage_station_aft : ℝ) : ℝ :=
  fuselage_avg_diameter * (fuselage_station_aft - (forebody_len bwb_passenger_leading_edge_sweep
    fuselage_avg_diameter fuselage_pressurized_width_additional))

/-- aviary/subsystems/geometry/gasp_based/fuselage.py:819 -/
noncomputable def area_cabin (bwb_passenger_leading_edge_sweep fuselage_avg_diameter fuselage_pressurized_width_additional nose_length fuselage_station_aft : ℝ) : ℝ :=
  (area_forebody bwb_passenger_leading_edge_sweep fuselage_avg_diameter
    fuselage_pressurized_width_additional nose_length) + (area_aftbody
    bwb_passenger_leading_edge_sweep fuselage_avg_diameter fuselage_pressurized_width_additional
    fuselage_station_aft)

/-- aviary/subsystems/geometry/gasp_based/fuselage.py:822 -/
noncomputable def area_body_planform (bwb_passenger_leading_edge_sweep fuselage_avg_diameter fuselage_pressurized_width_additional fuselage_tail_fineness nose_length cabin_height fuselage_station_aft : ℝ) : ℝ :=
  ((area_nose_planform bwb_passenger_leading_edge_sweep nose_length) + (area_cabin
    bwb_passenger_leading_edge_sweep fuselage_avg_diameter fuselage_pressurized_width_additional
    nose_length fuselage_station_aft)) + (area_aftbody_planform fuselage_avg_diameter
    fuselage_pressurized_width_additional fuselage_tail_fineness cabin_height)

/-- aviary/subsystems/geometry/gasp_based/fuselage.py:847 -/
noncomputable def fb_sweep_rad (bwb_passenger_leading_edge_sweep : ℝ) : ℝ :=
  bwb_passenger_leading_edge_sweep / rad2deg

/-- aviary/subsystems/geometry/gasp_based/fuselage.py:848 -/
noncomputable def fb_tan (bwb_passenger_leading_edge_sweep : ℝ) : ℝ :=
  tan (fb_sweep_rad bwb_passenger_leading_edge_sweep)

/-- aviary/subsystems/geometry/gasp_based/fuselage.py:849 -/
noncomputable def fb_cos (bwb_passenger_leading_edge_sweep : ℝ) : ℝ :=
  cos (fb_sweep_rad bwb_passenger_leading_edge_sweep)

/-- aviary/subsystems/geometry/gasp_based/fuselage.py:850 -/
noncomputable def fb_dtan (bwb_passenger_leading_edge_sweep : ℝ) : ℝ :=
  (1 / rad2deg) / ((fb_cos bwb_passenger_leading_edge_sweep) * (fb_cos
    bwb_passenger_leading_edge_sweep))

/-- aviary/subsystems/geometry/gasp_based/fuselage.py:865 -/
noncomputable def d_forebody_area_d_bd_width (bwb_passenger_leading_edge_sweep fuselage_avg_diameter fuselage_pressurized_width_additional nose_length : ℝ) : ℝ :=
  (((1 / 2) * (fb_tan bwb_passenger_leading_edge_sweep)) * (((1 / 2) * fuselage_avg_diameter) +
    (nose_length / (fb_tan bwb_passenger_leading_edge_sweep)))) + (((((1 / 2) * (cabin_width
    fuselage_avg_diameter fuselage_pressurized_width_additional)) * (fb_tan
    bwb_passenger_leading_edge_sweep)) - nose_length) * (1 / 2))

/-- aviary/subsystems/geometry/gasp_based/fuselage.py:868 -/
noncomputable def d_forebody_area_d_ns_length (bwb_passenger_leading_edge_sweep fuselage_avg_diameter fuselage_pressurized_width_additional nose_length : ℝ) : ℝ :=
  (-(((1 / 2) * fuselage_avg_diameter) + (nose_length / (fb_tan
    bwb_passenger_leading_edge_sweep)))) + (((((1 / 2) * (cabin_width fuselage_avg_diameter
    fuselage_pressurized_width_additional)) * (fb_tan bwb_passenger_leading_edge_sweep)) -
    nose_length) / (fb_tan bwb_passenger_leading_edge_sweep))

/-- aviary/subsystems/geometry/gasp_based/fuselage.py:872 -/
noncomputable def d_forebody_area_d_add_length (bwb_passenger_leading_edge_sweep fuselage_avg_diameter nose_length : ℝ) : ℝ :=
  ((-(1 / 2)) * (fb_tan bwb_passenger_leading_edge_sweep)) * (((1 / 2) * fuselage_avg_diameter)
    + (nose_length / (fb_tan bwb_passenger_leading_edge_sweep)))

/-- aviary/subsystems/geometry/gasp_based/fuselage.py:873 -/
noncomputable def d_forebody_area_d_sweep (bwb_passenger_leading_edge_sweep fuselage_avg_diameter fuselage_pressurized_width_additional nose_length : ℝ) : ℝ :=
  ((((1 / 2) * (cabin_width fuselage_avg_diameter fuselage_pressurized_width_additional)) *
    (fb_dtan bwb_passenger_leading_edge_sweep)) * (((1 / 2) * fuselage_avg_diameter) +
    (nose_length / (fb_tan bwb_passenger_leading_edge_sweep)))) - (((((((1 / 2) * (cabin_width
    fuselage_avg_diameter fuselage_pressurized_width_additional)) * (fb_tan
    bwb_passenger_leading_edge_sweep)) - nose_length) * nose_length) / ((fb_tan
    bwb_passenger_leading_edge_sweep) ^ 2)) * (fb_dtan bwb_passenger_leading_edge_sweep))

/-- aviary/subsystems/geometry/gasp_based/fuselage.py:876 -/
noncomputable def d_aftbody_area_d_bd_width (bwb_passenger_leading_edge_sweep fuselage_avg_diameter fuselage_pressurized_width_additional fuselage_station_aft : ℝ) : ℝ :=
  (fuselage_station_aft - (((1 / 2) * (cabin_width fuselage_avg_diameter
    fuselage_pressurized_width_additional)) * (fb_tan bwb_passenger_leading_edge_sweep))) - (((1
    / 2) * fuselage_avg_diameter) * (fb_tan bwb_passenger_leading_edge_sweep))

/-- aviary/subsystems/geometry/gasp_based/fuselage.py:880 -/
noncomputable def d_aftbody_area_d_additional (bwb_passenger_leading_edge_sweep fuselage_avg_diameter : ℝ) : ℝ :=
  ((1 / 2) * fuselage_avg_diameter) * (fb_tan bwb_passenger_leading_edge_sweep)

/-- aviary/subsystems/geometry/gasp_based/fuselage.py:881 -/
noncomputable def d_aftbody_area_d_sweep (bwb_passenger_leading_edge_sweep fuselage_avg_diameter fuselage_pressurized_width_additional : ℝ) : ℝ :=
  (((-(1 / 2)) * fuselage_avg_diameter) * (cabin_width fuselage_avg_diameter
    fuselage_pressurized_width_additional)) * (fb_dtan bwb_passenger_leading_edge_sweep)

/-- aviary/subsystems/geometry/gasp_based/fuselage.py:886 -/
noncomputable def d_cabin_area_d_body_len (bwb_passenger_leading_edge_sweep fuselage_avg_diameter fuselage_pressurized_width_additional nose_length fuselage_station_aft : ℝ) : ℝ :=
  (d_forebody_area_d_bd_width bwb_passenger_leading_edge_sweep fuselage_avg_diameter
    fuselage_pressurized_width_additional nose_length) + (d_aftbody_area_d_bd_width
    bwb_passenger_leading_edge_sweep fuselage_avg_diameter fuselage_pressurized_width_additional
    fuselage_station_aft)

/-- aviary/subsystems/geometry/gasp_based/fuselage.py:895 -/
noncomputable def d_cabin_area_d_additional (bwb_passenger_leading_edge_sweep fuselage_avg_diameter nose_length : ℝ) : ℝ :=
  (d_forebody_area_d_add_length bwb_passenger_leading_edge_sweep fuselage_avg_diameter
    nose_length) + (d_aftbody_area_d_additional bwb_passenger_leading_edge_sweep
    fuselage_avg_diameter)

/-- aviary/subsystems/geometry/gasp_based/fuselage.py:900 -/
noncomputable def d_cabin_area_d_sweep (bwb_passenger_leading_edge_sweep fuselage_avg_diameter fuselage_pressurized_width_additional nose_length : ℝ) : ℝ :=
  (d_forebody_area_d_sweep bwb_passenger_leading_edge_sweep fuselage_avg_diameter
    fuselage_pressurized_width_additional nose_length) + (d_aftbody_area_d_sweep
    bwb_passenger_leading_edge_sweep fuselage_avg_diameter
    fuselage_pressurized_width_additional)

/-- aviary/subsystems/geometry/gasp_based/fuselage.py:905 -/
noncomputable def d_nose_pf_area_d_nose_len (bwb_passenger_leading_edge_sweep nose_length : ℝ) : ℝ :=
  (2 * nose_length) / (fb_tan bwb_passenger_leading_edge_sweep)

/-- aviary/subsystems/geometry/gasp_based/fuselage.py:907 -/
noncomputable def d_nose_pf_area_d_sweep (bwb_passenger_leading_edge_sweep nose_length : ℝ) : ℝ :=
  ((((-nose_length) * nose_length) / (fb_tan bwb_passenger_leading_edge_sweep)) / (fb_tan
    bwb_passenger_leading_edge_sweep)) * (fb_dtan bwb_passenger_leading_edge_sweep)

/-- aviary/subsystems/geometry/gasp_based/fuselage.py:910 -/
noncomputable def d_tail_pf_area_d_tail_fineness (fuselage_avg_diameter fuselage_pressurized_width_additional cabin_height : ℝ) : ℝ :=
  cabin_height * (fuselage_avg_diameter - ((1 / 2) * fuselage_pressurized_width_additional))

/-- aviary/subsystems/geometry/gasp_based/fuselage.py:911 -/
noncomputable def d_tail_pf_area_d_both_width (fuselage_tail_fineness cabin_height : ℝ) : ℝ :=
  fuselage_tail_fineness * cabin_height

/-- aviary/subsystems/geometry/gasp_based/fuselage.py:912 -/
noncomputable def d_tail_pf_area_d_additional (fuselage_tail_fineness cabin_height : ℝ) : ℝ :=
  ((-(1 / 2)) * fuselage_tail_fineness) * cabin_height

/-- aviary/subsystems/geometry/gasp_based/fuselage.py:913 -/
noncomputable def d_tail_pf_area_d_cabin_height (fuselage_avg_diameter fuselage_pressurized_width_additional fuselage_tail_fineness : ℝ) : ℝ :=
  fuselage_tail_fineness * (fuselage_avg_diameter - ((1 / 2) *
    fuselage_pressurized_width_additional))

/-- Output `cabin_len` of `BWBFuselageParameters2.compute`, aviary/subsystems/geometry/gasp_based/fuselage.py:824 -/
noncomputable def out_cabin_len (fuselage_pilot_compartment_length nose_length fuselage_station_aft : ℝ) : ℝ :=
  cabin_len fuselage_pilot_compartment_length nose_length fuselage_station_aft

/-- Output `forebody_len` of `BWBFuselageParameters2.compute`, aviary/subsystems/geometry/gasp_based/fuselage.py:825 -/
noncomputable def out_forebody_len (bwb_passenger_leading_edge_sweep fuselage_avg_diameter fuselage_pressurized_width_additional : ℝ) : ℝ :=
  forebody_len bwb_passenger_leading_edge_sweep fuselage_avg_diameter
    fuselage_pressurized_width_additional

/-- Output `aftbody_len` of `BWBFuselageParameters2.compute`, aviary/subsystems/geometry/gasp_based/fuselage.py:826 -/
noncomputable def out_aftbody_len (fuselage_tail_fineness cabin_height : ℝ) : ℝ :=
  aftbody_len fuselage_tail_fineness cabin_height

/-- Output `nose_area` of `BWBFuselageParameters2.compute`, aviary/subsystems/geometry/gasp_based/fuselage.py:827 -/
noncomputable def out_nose_area (bwb_passenger_leading_edge_sweep nose_length : ℝ) : ℝ :=
  area_nose_planform bwb_passenger_leading_edge_sweep nose_length

/-- Output `fuselage_cabin_area` of `BWBFuselageParameters2.compute`, aviary/subsystems/geometry/gasp_based/fuselage.py:828 -/
noncomputable def out_fuselage_cabin_area (bwb_passenger_leading_edge_sweep fuselage_avg_diameter fuselage_pressurized_width_additional nose_length fuselage_station_aft : ℝ) : ℝ :=
  area_cabin bwb_passenger_leading_edge_sweep fuselage_avg_diameter
    fuselage_pressurized_width_additional nose_length fuselage_station_aft

/-- Output `fuselage_planform_area` of `BWBFuselageParameters2.compute`, aviary/subsystems/geometry/gasp_based/fuselage.py:829 -/
noncomputable def out_fuselage_planform_area (bwb_passenger_leading_edge_sweep fuselage_avg_diameter fuselage_pressurized_width_additional fuselage_tail_fineness nose_length cabin_height fuselage_station_aft : ℝ) : ℝ :=
  area_body_planform bwb_passenger_leading_edge_sweep fuselage_avg_diameter
    fuselage_pressurized_width_additional fuselage_tail_fineness nose_length cabin_height
    fuselage_station_aft

/-- Partial of `cabin_len` with respect to `fuselage_station_aft` as set by `BWBFuselageParameters2`, aviary/subsystems/geometry/gasp_based/fuselage.py:854 -/
noncomputable def J_cabin_len__fuselage_station_aft : ℝ := 1

/-- Partial of `cabin_len` with respect to `nose_length` as set by `BWBFuselageParameters2`, aviary/subsystems/geometry/gasp_based/fuselage.py:855 -/
noncomputable def J_cabin_len__nose_length : ℝ := -1

/-- Partial of `cabin_len` with respect to `fuselage_pilot_compartment_length` as set by `BWBFuselageParameters2`, aviary/subsystems/geometry/gasp_based/fuselage.py:856 -/
noncomputable def J_cabin_len__fuselage_pilot_compartment_length : ℝ := -1

/-- Partial of `forebody_len` with respect to `fuselage_avg_diameter` as set by `BWBFuselageParameters2`, aviary/subsystems/geometry/gasp_based/fuselage.py:858 -/
noncomputable def J_forebody_len__fuselage_avg_diameter (bwb_passenger_leading_edge_sweep : ℝ) : ℝ :=
  (1 / 2) * (fb_tan bwb_passenger_leading_edge_sweep)

/-- Partial of `forebody_len` with respect to `bwb_passenger_leading_edge_sweep` as set by `BWBFuselageParameters2`, aviary/subsystems/geometry/gasp_based/fuselage.py:859 -/
noncomputable def J_forebody_len__bwb_passenger_leading_edge_sweep (bwb_passenger_leading_edge_sweep fuselage_avg_diameter fuselage_pressurized_width_additional : ℝ) : ℝ :=
  ((1 / 2) * (cabin_width fuselage_avg_diameter fuselage_pressurized_width_additional)) *
    (fb_dtan bwb_passenger_leading_edge_sweep)

/-- Partial of `forebody_len` with respect to `fuselage_pressurized_width_additional` as set by `BWBFuselageParameters2`, aviary/subsystems/geometry/gasp_based/fuselage.py:860 -/
noncomputable def J_forebody_len__fuselage_pressurized_width_additional (bwb_passenger_leading_edge_sweep : ℝ) : ℝ :=
  (-(1 / 2)) * (fb_tan bwb_passenger_leading_edge_sweep)

/-- Partial of `aftbody_len` with respect to `fuselage_tail_fineness` as set by `BWBFuselageParameters2`, aviary/subsystems/geometry/gasp_based/fuselage.py:862 -/
noncomputable def J_aftbody_len__fuselage_tail_fineness (cabin_height : ℝ) : ℝ := cabin_height

/-- Partial of `aftbody_len` with respect to `cabin_height` as set by `BWBFuselageParameters2`, aviary/subsystems/geometry/gasp_based/fuselage.py:863 -/
noncomputable def J_aftbody_len__cabin_height (fuselage_tail_fineness : ℝ) : ℝ :=
  fuselage_tail_fineness

/-- Partial of `fuselage_cabin_area` with respect to `fuselage_avg_diameter` as set by `BWBFuselageParameters2`, aviary/subsystems/geometry/gasp_based/fuselage.py:887 -/
noncomputable def J_fuselage_cabin_area__fuselage_avg_diameter (bwb_passenger_leading_edge_sweep fuselage_avg_diameter fuselage_pressurized_width_additional nose_length fuselage_station_aft : ℝ) : ℝ :=
  d_cabin_area_d_body_len bwb_passenger_leading_edge_sweep fuselage_avg_diameter
    fuselage_pressurized_width_additional nose_length fuselage_station_aft

/-- Partial of `fuselage_cabin_area` with respect to `nose_length` as set by `BWBFuselageParameters2`, aviary/subsystems/geometry/gasp_based/fuselage.py:890 -/
noncomputable def J_fuselage_cabin_area__nose_length (bwb_passenger_leading_edge_sweep fuselage_avg_diameter fuselage_pressurized_width_additional nose_length : ℝ) : ℝ :=
  d_forebody_area_d_ns_length bwb_passenger_leading_edge_sweep fuselage_avg_diameter
    fuselage_pressurized_width_additional nose_length

/-- Partial of `fuselage_cabin_area` with respect to `fuselage_station_aft` as set by `BWBFuselageParameters2`, aviary/subsystems/geometry/gasp_based/fuselage.py:893 -/
noncomputable def J_fuselage_cabin_area__fuselage_station_aft (fuselage_avg_diameter : ℝ) : ℝ :=
  fuselage_avg_diameter

/-- Partial of `fuselage_cabin_area` with respect to `fuselage_pressurized_width_additional` as set by `BWBFuselageParameters2`, aviary/subsystems/geometry/gasp_based/fuselage.py:896 -/
noncomputable def J_fuselage_cabin_area__fuselage_pressurized_width_additional (bwb_passenger_leading_edge_sweep fuselage_avg_diameter nose_length : ℝ) : ℝ :=
  d_cabin_area_d_additional bwb_passenger_leading_edge_sweep fuselage_avg_diameter nose_length

/-- Partial of `fuselage_cabin_area` with respect to `bwb_passenger_leading_edge_sweep` as set by `BWBFuselageParameters2`, aviary/subsystems/geometry/gasp_based/fuselage.py:901 -/
noncomputable def J_fuselage_cabin_area__bwb_passenger_leading_edge_sweep (bwb_passenger_leading_edge_sweep fuselage_avg_diameter fuselage_pressurized_width_additional nose_length : ℝ) : ℝ :=
  d_cabin_area_d_sweep bwb_passenger_leading_edge_sweep fuselage_avg_diameter
    fuselage_pressurized_width_additional nose_length

/-- Partial of `nose_area` with respect to `nose_length` as set by `BWBFuselageParameters2`, aviary/subsystems/geometry/gasp_based/fuselage.py:906 -/
noncomputable def J_nose_area__nose_length (bwb_passenger_leading_edge_sweep nose_length : ℝ) : ℝ :=
  d_nose_pf_area_d_nose_len bwb_passenger_leading_edge_sweep nose_length

/-- Partial of `nose_area` with respect to `bwb_passenger_leading_edge_sweep` as set by `BWBFuselageParameters2`, aviary/subsystems/geometry/gasp_based/fuselage.py:908 -/
noncomputable def J_nose_area__bwb_passenger_leading_edge_sweep (bwb_passenger_leading_edge_sweep nose_length : ℝ) : ℝ :=
  d_nose_pf_area_d_sweep bwb_passenger_leading_edge_sweep nose_length

/-- Partial of `fuselage_planform_area` with respect to `bwb_passenger_leading_edge_sweep` as set by `BWBFuselageParameters2`, aviary/subsystems/geometry/gasp_based/fuselage.py:920 -/
noncomputable def J_fuselage_planform_area__bwb_passenger_leading_edge_sweep (bwb_passenger_leading_edge_sweep fuselage_avg_diameter fuselage_pressurized_width_additional nose_length : ℝ) : ℝ :=
  (d_nose_pf_area_d_sweep bwb_passenger_leading_edge_sweep nose_length) + (d_cabin_area_d_sweep
    bwb_passenger_leading_edge_sweep fuselage_avg_diameter fuselage_pressurized_width_additional
    nose_length)

/-- Partial of `fuselage_planform_area` with respect to `fuselage_avg_diameter` as set by `BWBFuselageParameters2`, aviary/subsystems/geometry/gasp_based/fuselage.py:923 -/
noncomputable def J_fuselage_planform_area__fuselage_avg_diameter (bwb_passenger_leading_edge_sweep fuselage_avg_diameter fuselage_pressurized_width_additional fuselage_tail_fineness nose_length cabin_height fuselage_station_aft : ℝ) : ℝ :=
  (d_cabin_area_d_body_len bwb_passenger_leading_edge_sweep fuselage_avg_diameter
    fuselage_pressurized_width_additional nose_length fuselage_station_aft) +
    (d_tail_pf_area_d_both_width fuselage_tail_fineness cabin_height)

/-- Partial of `fuselage_planform_area` with respect to `fuselage_pressurized_width_additional` as set by `BWBFuselageParameters2`, aviary/subsystems/geometry/gasp_based/fuselage.py:926 -/
noncomputable def J_fuselage_planform_area__fuselage_pressurized_width_additional (bwb_passenger_leading_edge_sweep fuselage_avg_diameter fuselage_tail_fineness nose_length cabin_height : ℝ) : ℝ :=
  (d_cabin_area_d_additional bwb_passenger_leading_edge_sweep fuselage_avg_diameter nose_length)
    + (d_tail_pf_area_d_additional fuselage_tail_fineness cabin_height)

/-- Partial of `fuselage_planform_area` with respect to `fuselage_station_aft` as set by `BWBFuselageParameters2`, aviary/subsystems/geometry/gasp_based/fuselage.py:929 -/
noncomputable def J_fuselage_planform_area__fuselage_station_aft (fuselage_avg_diameter : ℝ) : ℝ :=
  fuselage_avg_diameter

/-- Partial of `fuselage_planform_area` with respect to `nose_length` as set by `BWBFuselageParameters2`, aviary/subsystems/geometry/gasp_based/fuselage.py:930 -/
noncomputable def J_fuselage_planform_area__nose_length (bwb_passenger_leading_edge_sweep fuselage_avg_diameter fuselage_pressurized_width_additional nose_length : ℝ) : ℝ :=
  (d_nose_pf_area_d_nose_len bwb_passenger_leading_edge_sweep nose_length) +
    (d_forebody_area_d_ns_length bwb_passenger_leading_edge_sweep fuselage_avg_diameter
    fuselage_pressurized_width_additional nose_length)

/-- Partial of `fuselage_planform_area` with respect to `cabin_height` as set by `BWBFuselageParameters2`, aviary/subsystems/geometry/gasp_based/fuselage.py:933 -/
noncomputable def J_fuselage_planform_area__cabin_height (fuselage_avg_diameter fuselage_pressurized_width_additional fuselage_tail_fineness : ℝ) : ℝ :=
  d_tail_pf_area_d_cabin_height fuselage_avg_diameter fuselage_pressurized_width_additional
    fuselage_tail_fineness

/-- Partial of `fuselage_planform_area` with respect to `fuselage_tail_fineness` as set by `BWBFuselageParameters2`, aviary/subsystems/geometry/gasp_based/fuselage.py:934 -/
noncomputable def J_fuselage_planform_area__fuselage_tail_fineness (fuselage_avg_diameter fuselage_pressurized_width_additional cabin_height : ℝ) : ℝ :=
  d_tail_pf_area_d_tail_fineness fuselage_avg_diameter fuselage_pressurized_width_additional
    cabin_height

theorem d_cabin_len__fuselage_pilot_compartment_length (fuselage_pilot_compartment_length
    nose_length fuselage_station_aft : ℝ)  :
    HasDerivAt (fun t => out_cabin_len t nose_length fuselage_station_aft) (J_cabin_len__fuselage_pilot_compartment_length) fuselage_pilot_compartment_length := by
  simp only [out_cabin_len, J_cabin_len__fuselage_pilot_compartment_length, cabin_len]
  (apply hasDerivAt_of_eq; on_goal 1 => (repeat' comp_step))
  all_goals try comp_side
  all_goals try simp only [mul_zero, zero_mul, add_zero, zero_add, sub_zero, zero_sub, mul_one, one_mul]
  all_goals try push_cast
  all_goals comp_eq

theorem d_cabin_len__nose_length (fuselage_pilot_compartment_length nose_length
    fuselage_station_aft : ℝ)  :
    HasDerivAt (fun t => out_cabin_len fuselage_pilot_compartment_length t fuselage_station_aft) (J_cabin_len__nose_length) nose_length := by
  simp only [out_cabin_len, J_cabin_len__nose_length, cabin_len]
  (apply hasDerivAt_of_eq; on_goal 1 => (repeat' comp_step))
  all_goals try comp_side
  all_goals try simp only [mul_zero, zero_mul, add_zero, zero_add, sub_zero, zero_sub, mul_one, one_mul]
  all_goals try push_cast
  all_goals comp_eq

theorem d_cabin_len__fuselage_station_aft (fuselage_pilot_compartment_length nose_length
    fuselage_station_aft : ℝ)  :
    HasDerivAt (fun t => out_cabin_len fuselage_pilot_compartment_length nose_length t) (J_cabin_len__fuselage_station_aft) fuselage_station_aft := by
  simp only [out_cabin_len, J_cabin_len__fuselage_station_aft, cabin_len]
  (apply hasDerivAt_of_eq; on_goal 1 => (repeat' comp_step))
  all_goals try comp_side
  all_goals try simp only [mul_zero, zero_mul, add_zero, zero_add, sub_zero, zero_sub, mul_one, one_mul]
  all_goals try push_cast
  all_goals comp_eq

theorem d_forebody_len__bwb_passenger_leading_edge_sweep (bwb_passenger_leading_edge_sweep
    fuselage_avg_diameter fuselage_pressurized_width_additional : ℝ) (h0 : cos
    (bwb_passenger_leading_edge_sweep / (180 / π)) ≠ 0) (h1 : cos
    (bwb_passenger_leading_edge_sweep / (180 / π)) ≠ 0) :
    HasDerivAt (fun t => out_forebody_len t fuselage_avg_diameter fuselage_pressurized_width_additional) (J_forebody_len__bwb_passenger_leading_edge_sweep bwb_passenger_leading_edge_sweep fuselage_avg_diameter fuselage_pressurized_width_additional) bwb_passenger_leading_edge_sweep := by
  simp only [out_forebody_len, J_forebody_len__bwb_passenger_leading_edge_sweep, fb_dtan, fb_cos, fb_sweep_rad, forebody_len, rad2deg, cabin_width]
  (apply hasDerivAt_of_eq; on_goal 1 => (repeat' comp_step))
  all_goals try comp_side
  all_goals try simp only [mul_zero, zero_mul, add_zero, zero_add, sub_zero, zero_sub, mul_one, one_mul]
  all_goals try push_cast
  all_goals comp_eq

theorem d_forebody_len__fuselage_avg_diameter (bwb_passenger_leading_edge_sweep
    fuselage_avg_diameter fuselage_pressurized_width_additional : ℝ) (h0 : cos
    (bwb_passenger_leading_edge_sweep / (180 / π)) ≠ 0) (h1 : cos
    (bwb_passenger_leading_edge_sweep / (180 / π)) ≠ 0) :
    HasDerivAt (fun t => out_forebody_len bwb_passenger_leading_edge_sweep t fuselage_pressurized_width_additional) (J_forebody_len__fuselage_avg_diameter bwb_passenger_leading_edge_sweep) fuselage_avg_diameter := by
  simp only [out_forebody_len, J_forebody_len__fuselage_avg_diameter, fb_tan, fb_sweep_rad, forebody_len, rad2deg, cabin_width]
  (apply hasDerivAt_of_eq; on_goal 1 => (repeat' comp_step))
  all_goals try comp_side
  all_goals try simp only [mul_zero, zero_mul, add_zero, zero_add, sub_zero, zero_sub, mul_one, one_mul]
  all_goals try push_cast
  all_goals comp_eq

theorem d_forebody_len__fuselage_pressurized_width_additional (bwb_passenger_leading_edge_sweep
    fuselage_avg_diameter fuselage_pressurized_width_additional : ℝ) (h0 : cos
    (bwb_passenger_leading_edge_sweep / (180 / π)) ≠ 0) (h1 : cos
    (bwb_passenger_leading_edge_sweep / (180 / π)) ≠ 0) :
    HasDerivAt (fun t => out_forebody_len bwb_passenger_leading_edge_sweep fuselage_avg_diameter t) (J_forebody_len__fuselage_pressurized_width_additional bwb_passenger_leading_edge_sweep) fuselage_pressurized_width_additional := by
  simp only [out_forebody_len, J_forebody_len__fuselage_pressurized_width_additional, fb_tan, fb_sweep_rad, forebody_len, rad2deg, cabin_width]
  (apply hasDerivAt_of_eq; on_goal 1 => (repeat' comp_step))
  all_goals try comp_side
  all_goals try simp only [mul_zero, zero_mul, add_zero, zero_add, sub_zero, zero_sub, mul_one, one_mul]
  all_goals try push_cast
  all_goals comp_eq

theorem d_aftbody_len__fuselage_tail_fineness (fuselage_tail_fineness cabin_height : ℝ)  :
    HasDerivAt (fun t => out_aftbody_len t cabin_height) (J_aftbody_len__fuselage_tail_fineness cabin_height) fuselage_tail_fineness := by
  simp only [out_aftbody_len, J_aftbody_len__fuselage_tail_fineness, aftbody_len]
  (apply hasDerivAt_of_eq; on_goal 1 => (repeat' comp_step))
  all_goals try comp_side
  all_goals try simp only [mul_zero, zero_mul, add_zero, zero_add, sub_zero, zero_sub, mul_one, one_mul]
  all_goals try push_cast
  all_goals comp_eq

theorem d_aftbody_len__cabin_height (fuselage_tail_fineness cabin_height : ℝ)  :
    HasDerivAt (fun t => out_aftbody_len fuselage_tail_fineness t) (J_aftbody_len__cabin_height fuselage_tail_fineness) cabin_height := by
  simp only [out_aftbody_len, J_aftbody_len__cabin_height, aftbody_len]
  (apply hasDerivAt_of_eq; on_goal 1 => (repeat' comp_step))
  all_goals try comp_side
  all_goals try simp only [mul_zero, zero_mul, add_zero, zero_add, sub_zero, zero_sub, mul_one, one_mul]
  all_goals try push_cast
  all_goals comp_eq

theorem d_nose_area__bwb_passenger_leading_edge_sweep (bwb_passenger_leading_edge_sweep
    nose_length : ℝ) (h0 : cos (bwb_passenger_leading_edge_sweep / (180 / π)) ≠ 0) (h1 : tan
    (bwb_passenger_leading_edge_sweep / (180 / π)) ≠ 0) (h2 : cos
    (bwb_passenger_leading_edge_sweep / (180 / π)) ≠ 0) (h3 : tan
    (bwb_passenger_leading_edge_sweep / (180 / π)) ≠ 0) :
    HasDerivAt (fun t => out_nose_area t nose_length) (J_nose_area__bwb_passenger_leading_edge_sweep bwb_passenger_leading_edge_sweep nose_length) bwb_passenger_leading_edge_sweep := by
  simp only [out_nose_area, J_nose_area__bwb_passenger_leading_edge_sweep, d_nose_pf_area_d_sweep, fb_dtan, fb_cos, fb_tan, fb_sweep_rad, area_nose_planform, nose_width, rad2deg]
  (apply hasDerivAt_of_eq; on_goal 1 => (repeat' comp_step))
  all_goals try comp_side
  all_goals try simp only [mul_zero, zero_mul, add_zero, zero_add, sub_zero, zero_sub, mul_one, one_mul]
  all_goals try push_cast
  all_goals comp_eq

theorem d_nose_area__nose_length (bwb_passenger_leading_edge_sweep nose_length : ℝ) (h0 : cos
    (bwb_passenger_leading_edge_sweep / (180 / π)) ≠ 0) (h1 : tan
    (bwb_passenger_leading_edge_sweep / (180 / π)) ≠ 0) (h2 : cos
    (bwb_passenger_leading_edge_sweep / (180 / π)) ≠ 0) (h3 : tan
    (bwb_passenger_leading_edge_sweep / (180 / π)) ≠ 0) :
    HasDerivAt (fun t => out_nose_area bwb_passenger_leading_edge_sweep t) (J_nose_area__nose_length bwb_passenger_leading_edge_sweep nose_length) nose_length := by
  simp only [out_nose_area, J_nose_area__nose_length, d_nose_pf_area_d_nose_len, fb_tan, fb_sweep_rad, area_nose_planform, nose_width, rad2deg]
  (apply hasDerivAt_of_eq; on_goal 1 => (repeat' comp_step))
  all_goals try comp_side
  all_goals try simp only [mul_zero, zero_mul, add_zero, zero_add, sub_zero, zero_sub, mul_one, one_mul]
  all_goals try push_cast
  all_goals comp_eq

theorem d_fuselage_cabin_area__bwb_passenger_leading_edge_sweep (bwb_passenger_leading_edge_sweep
    fuselage_avg_diameter fuselage_pressurized_width_additional nose_length fuselage_station_aft :
    ℝ) (h0 : cos (bwb_passenger_leading_edge_sweep / (180 / π)) ≠ 0) (h1 : tan
    (bwb_passenger_leading_edge_sweep / (180 / π)) ≠ 0) (h2 : cos
    (bwb_passenger_leading_edge_sweep / (180 / π)) ≠ 0) (h3 : tan
    (bwb_passenger_leading_edge_sweep / (180 / π)) ≠ 0) :
    HasDerivAt (fun t => out_fuselage_cabin_area t fuselage_avg_diameter fuselage_pressurized_width_additional nose_length fuselage_station_aft) (J_fuselage_cabin_area__bwb_passenger_leading_edge_sweep bwb_passenger_leading_edge_sweep fuselage_avg_diameter fuselage_pressurized_width_additional nose_length) bwb_passenger_leading_edge_sweep := by
  simp only [out_fuselage_cabin_area, J_fuselage_cabin_area__bwb_passenger_leading_edge_sweep, d_cabin_area_d_sweep, d_aftbody_area_d_sweep, d_forebody_area_d_sweep, fb_tan, fb_dtan, fb_cos, fb_sweep_rad, area_cabin, area_aftbody, area_forebody, nose_width, forebody_len, rad2deg, cabin_width]
  (apply hasDerivAt_of_eq; on_goal 1 => (repeat' comp_step))
  all_goals try comp_side
  all_goals try simp only [mul_zero, zero_mul, add_zero, zero_add, sub_zero, zero_sub, mul_one, one_mul]
  all_goals try push_cast
  all_goals comp_eq

theorem d_fuselage_cabin_area__fuselage_avg_diameter (bwb_passenger_leading_edge_sweep
    fuselage_avg_diameter fuselage_pressurized_width_additional nose_length fuselage_station_aft :
    ℝ) (h0 : cos (bwb_passenger_leading_edge_sweep / (180 / π)) ≠ 0) (h1 : tan
    (bwb_passenger_leading_edge_sweep / (180 / π)) ≠ 0) (h2 : cos
    (bwb_passenger_leading_edge_sweep / (180 / π)) ≠ 0) (h3 : tan
    (bwb_passenger_leading_edge_sweep / (180 / π)) ≠ 0) :
    HasDerivAt (fun t => out_fuselage_cabin_area bwb_passenger_leading_edge_sweep t fuselage_pressurized_width_additional nose_length fuselage_station_aft) (J_fuselage_cabin_area__fuselage_avg_diameter bwb_passenger_leading_edge_sweep fuselage_avg_diameter fuselage_pressurized_width_additional nose_length fuselage_station_aft) fuselage_avg_diameter := by
  simp only [out_fuselage_cabin_area, J_fuselage_cabin_area__fuselage_avg_diameter, d_cabin_area_d_body_len, d_aftbody_area_d_bd_width, d_forebody_area_d_bd_width, fb_tan, fb_sweep_rad, area_cabin, area_aftbody, area_forebody, nose_width, forebody_len, rad2deg, cabin_width]
  (apply hasDerivAt_of_eq; on_goal 1 => (repeat' comp_step))
  all_goals try comp_side
  all_goals try simp only [mul_zero, zero_mul, add_zero, zero_add, sub_zero, zero_sub, mul_one, one_mul]
  all_goals try push_cast
  all_goals comp_eq

theorem d_fuselage_cabin_area__fuselage_pressurized_width_additional
    (bwb_passenger_leading_edge_sweep fuselage_avg_diameter fuselage_pressurized_width_additional
    nose_length fuselage_station_aft : ℝ) (h0 : cos (bwb_passenger_leading_edge_sweep / (180 / π))
    ≠ 0) (h1 : tan (bwb_passenger_leading_edge_sweep / (180 / π)) ≠ 0) (h2 : cos
    (bwb_passenger_leading_edge_sweep / (180 / π)) ≠ 0) (h3 : tan
    (bwb_passenger_leading_edge_sweep / (180 / π)) ≠ 0) :
    HasDerivAt (fun t => out_fuselage_cabin_area bwb_passenger_leading_edge_sweep fuselage_avg_diameter t nose_length fuselage_station_aft) (J_fuselage_cabin_area__fuselage_pressurized_width_additional bwb_passenger_leading_edge_sweep fuselage_avg_diameter nose_length) fuselage_pressurized_width_additional := by
  simp only [out_fuselage_cabin_area, J_fuselage_cabin_area__fuselage_pressurized_width_additional, d_cabin_area_d_additional, d_aftbody_area_d_additional, d_forebody_area_d_add_length, fb_tan, fb_sweep_rad, area_cabin, area_aftbody, area_forebody, nose_width, forebody_len, rad2deg, cabin_width]
  (apply hasDerivAt_of_eq; on_goal 1 => (repeat' comp_step))
  all_goals try comp_side
  all_goals try simp only [mul_zero, zero_mul, add_zero, zero_add, sub_zero, zero_sub, mul_one, one_mul]
  all_goals try push_cast
  all_goals comp_eq

theorem d_fuselage_cabin_area__nose_length (bwb_passenger_leading_edge_sweep fuselage_avg_diameter
    fuselage_pressurized_width_additional nose_length fuselage_station_aft : ℝ) (h0 : cos
    (bwb_passenger_leading_edge_sweep / (180 / π)) ≠ 0) (h1 : tan
    (bwb_passenger_leading_edge_sweep / (180 / π)) ≠ 0) (h2 : cos
    (bwb_passenger_leading_edge_sweep / (180 / π)) ≠ 0) (h3 : tan
    (bwb_passenger_leading_edge_sweep / (180 / π)) ≠ 0) :
    HasDerivAt (fun t => out_fuselage_cabin_area bwb_passenger_leading_edge_sweep fuselage_avg_diameter fuselage_pressurized_width_additional t fuselage_station_aft) (J_fuselage_cabin_area__nose_length bwb_passenger_leading_edge_sweep fuselage_avg_diameter fuselage_pressurized_width_additional nose_length) nose_length := by
  simp only [out_fuselage_cabin_area, J_fuselage_cabin_area__nose_length, d_forebody_area_d_ns_length, fb_tan, fb_sweep_rad, area_cabin, area_aftbody, area_forebody, nose_width, forebody_len, rad2deg, cabin_width]
  (apply hasDerivAt_of_eq; on_goal 1 => (repeat' comp_step))
  all_goals try comp_side
  all_goals try simp only [mul_zero, zero_mul, add_zero, zero_add, sub_zero, zero_sub, mul_one, one_mul]
  all_goals try push_cast
  all_goals comp_eq

theorem d_fuselage_cabin_area__fuselage_station_aft (bwb_passenger_leading_edge_sweep
    fuselage_avg_diameter fuselage_pressurized_width_additional nose_length fuselage_station_aft :
    ℝ) (h0 : cos (bwb_passenger_leading_edge_sweep / (180 / π)) ≠ 0) (h1 : tan
    (bwb_passenger_leading_edge_sweep / (180 / π)) ≠ 0) :
    HasDerivAt (fun t => out_fuselage_cabin_area bwb_passenger_leading_edge_sweep fuselage_avg_diameter fuselage_pressurized_width_additional nose_length t) (J_fuselage_cabin_area__fuselage_station_aft fuselage_avg_diameter) fuselage_station_aft := by
  simp only [out_fuselage_cabin_area, J_fuselage_cabin_area__fuselage_station_aft, area_cabin, area_aftbody, area_forebody, nose_width, forebody_len, rad2deg, cabin_width]
  (apply hasDerivAt_of_eq; on_goal 1 => (repeat' comp_step))
  all_goals try comp_side
  all_goals try simp only [mul_zero, zero_mul, add_zero, zero_add, sub_zero, zero_sub, mul_one, one_mul]
  all_goals try push_cast
  all_goals comp_eq

theorem d_fuselage_planform_area__bwb_passenger_leading_edge_sweep
    (bwb_passenger_leading_edge_sweep fuselage_avg_diameter fuselage_pressurized_width_additional
    fuselage_tail_fineness nose_length cabin_height fuselage_station_aft : ℝ) (h0 : cos
    (bwb_passenger_leading_edge_sweep / (180 / π)) ≠ 0) (h1 : tan
    (bwb_passenger_leading_edge_sweep / (180 / π)) ≠ 0) (h2 : cos
    (bwb_passenger_leading_edge_sweep / (180 / π)) ≠ 0) (h3 : tan
    (bwb_passenger_leading_edge_sweep / (180 / π)) ≠ 0) :
    HasDerivAt (fun t => out_fuselage_planform_area t fuselage_avg_diameter fuselage_pressurized_width_additional fuselage_tail_fineness nose_length cabin_height fuselage_station_aft) (J_fuselage_planform_area__bwb_passenger_leading_edge_sweep bwb_passenger_leading_edge_sweep fuselage_avg_diameter fuselage_pressurized_width_additional nose_length) bwb_passenger_leading_edge_sweep := by
  simp only [out_fuselage_planform_area, J_fuselage_planform_area__bwb_passenger_leading_edge_sweep, d_cabin_area_d_sweep, d_aftbody_area_d_sweep, d_forebody_area_d_sweep, d_nose_pf_area_d_sweep, fb_dtan, fb_cos, fb_tan, fb_sweep_rad, area_body_planform, area_aftbody_planform, aftbody_len, area_cabin, area_aftbody, area_forebody, forebody_len, cabin_width, area_nose_planform, nose_width, rad2deg]
  (apply hasDerivAt_of_eq; on_goal 1 => (repeat' comp_step))
  all_goals try comp_side
  all_goals try simp only [mul_zero, zero_mul, add_zero, zero_add, sub_zero, zero_sub, mul_one, one_mul]
  all_goals try push_cast
  all_goals comp_eq

theorem d_fuselage_planform_area__fuselage_avg_diameter (bwb_passenger_leading_edge_sweep
    fuselage_avg_diameter fuselage_pressurized_width_additional fuselage_tail_fineness nose_length
    cabin_height fuselage_station_aft : ℝ) (h0 : cos (bwb_passenger_leading_edge_sweep / (180 /
    π)) ≠ 0) (h1 : tan (bwb_passenger_leading_edge_sweep / (180 / π)) ≠ 0) (h2 : cos
    (bwb_passenger_leading_edge_sweep / (180 / π)) ≠ 0) (h3 : tan
    (bwb_passenger_leading_edge_sweep / (180 / π)) ≠ 0) :
    HasDerivAt (fun t => out_fuselage_planform_area bwb_passenger_leading_edge_sweep t fuselage_pressurized_width_additional fuselage_tail_fineness nose_length cabin_height fuselage_station_aft) (J_fuselage_planform_area__fuselage_avg_diameter bwb_passenger_leading_edge_sweep fuselage_avg_diameter fuselage_pressurized_width_additional fuselage_tail_fineness nose_length cabin_height fuselage_station_aft) fuselage_avg_diameter := by
  simp only [out_fuselage_planform_area, J_fuselage_planform_area__fuselage_avg_diameter, d_tail_pf_area_d_both_width, d_cabin_area_d_body_len, d_aftbody_area_d_bd_width, d_forebody_area_d_bd_width, fb_tan, fb_sweep_rad, area_body_planform, area_aftbody_planform, aftbody_len, area_cabin, area_aftbody, area_forebody, forebody_len, cabin_width, area_nose_planform, nose_width, rad2deg]
  (apply hasDerivAt_of_eq; on_goal 1 => (repeat' comp_step))
  all_goals try comp_side
  all_goals try simp only [mul_zero, zero_mul, add_zero, zero_add, sub_zero, zero_sub, mul_one, one_mul]
  all_goals try push_cast
  all_goals comp_eq

theorem d_fuselage_planform_area__fuselage_pressurized_width_additional
    (bwb_passenger_leading_edge_sweep fuselage_avg_diameter fuselage_pressurized_width_additional
    fuselage_tail_fineness nose_length cabin_height fuselage_station_aft : ℝ) (h0 : cos
    (bwb_passenger_leading_edge_sweep / (180 / π)) ≠ 0) (h1 : tan
    (bwb_passenger_leading_edge_sweep / (180 / π)) ≠ 0) (h2 : cos
    (bwb_passenger_leading_edge_sweep / (180 / π)) ≠ 0) (h3 : tan
    (bwb_passenger_leading_edge_sweep / (180 / π)) ≠ 0) :
    HasDerivAt (fun t => out_fuselage_planform_area bwb_passenger_leading_edge_sweep fuselage_avg_diameter t fuselage_tail_fineness nose_length cabin_height fuselage_station_aft) (J_fuselage_planform_area__fuselage_pressurized_width_additional bwb_passenger_leading_edge_sweep fuselage_avg_diameter fuselage_tail_fineness nose_length cabin_height) fuselage_pressurized_width_additional := by
  simp only [out_fuselage_planform_area, J_fuselage_planform_area__fuselage_pressurized_width_additional, d_tail_pf_area_d_additional, d_cabin_area_d_additional, d_aftbody_area_d_additional, d_forebody_area_d_add_length, fb_tan, fb_sweep_rad, area_body_planform, area_aftbody_planform, aftbody_len, area_cabin, area_aftbody, area_forebody, forebody_len, cabin_width, area_nose_planform, nose_width, rad2deg]
  (apply hasDerivAt_of_eq; on_goal 1 => (repeat' comp_step))
  all_goals try comp_side
  all_goals try simp only [mul_zero, zero_mul, add_zero, zero_add, sub_zero, zero_sub, mul_one, one_mul]
  all_goals try push_cast
  all_goals comp_eq

theorem d_fuselage_planform_area__fuselage_tail_fineness (bwb_passenger_leading_edge_sweep
    fuselage_avg_diameter fuselage_pressurized_width_additional fuselage_tail_fineness nose_length
    cabin_height fuselage_station_aft : ℝ) (h0 : cos (bwb_passenger_leading_edge_sweep / (180 /
    π)) ≠ 0) (h1 : tan (bwb_passenger_leading_edge_sweep / (180 / π)) ≠ 0) :
    HasDerivAt (fun t => out_fuselage_planform_area bwb_passenger_leading_edge_sweep fuselage_avg_diameter fuselage_pressurized_width_additional t nose_length cabin_height fuselage_station_aft) (J_fuselage_planform_area__fuselage_tail_fineness fuselage_avg_diameter fuselage_pressurized_width_additional cabin_height) fuselage_tail_fineness := by
  simp only [out_fuselage_planform_area, J_fuselage_planform_area__fuselage_tail_fineness, d_tail_pf_area_d_tail_fineness, area_body_planform, area_aftbody_planform, aftbody_len, area_cabin, area_aftbody, area_forebody, forebody_len, cabin_width, area_nose_planform, nose_width, rad2deg]
  (apply hasDerivAt_of_eq; on_goal 1 => (repeat' comp_step))
  all_goals try comp_side
  all_goals try simp only [mul_zero, zero_mul, add_zero, zero_add, sub_zero, zero_sub, mul_one, one_mul]
  all_goals try push_cast
  all_goals comp_eq

theorem d_fuselage_planform_area__nose_length (bwb_passenger_leading_edge_sweep
    fuselage_avg_diameter fuselage_pressurized_width_additional fuselage_tail_fineness nose_length
    cabin_height fuselage_station_aft : ℝ) (h0 : cos (bwb_passenger_leading_edge_sweep / (180 /
    π)) ≠ 0) (h1 : tan (bwb_passenger_leading_edge_sweep / (180 / π)) ≠ 0) (h2 : cos
    (bwb_passenger_leading_edge_sweep / (180 / π)) ≠ 0) (h3 : tan
    (bwb_passenger_leading_edge_sweep / (180 / π)) ≠ 0) :
    HasDerivAt (fun t => out_fuselage_planform_area bwb_passenger_leading_edge_sweep fuselage_avg_diameter fuselage_pressurized_width_additional fuselage_tail_fineness t cabin_height fuselage_station_aft) (J_fuselage_planform_area__nose_length bwb_passenger_leading_edge_sweep fuselage_avg_diameter fuselage_pressurized_width_additional nose_length) nose_length := by
  simp only [out_fuselage_planform_area, J_fuselage_planform_area__nose_length, d_forebody_area_d_ns_length, d_nose_pf_area_d_nose_len, fb_tan, fb_sweep_rad, area_body_planform, area_aftbody_planform, aftbody_len, area_cabin, area_aftbody, area_forebody, forebody_len, cabin_width, area_nose_planform, nose_width, rad2deg]
  (apply hasDerivAt_of_eq; on_goal 1 => (repeat' comp_step))
  all_goals try comp_side
  all_goals try simp only [mul_zero, zero_mul, add_zero, zero_add, sub_zero, zero_sub, mul_one, one_mul]
  all_goals try push_cast
  all_goals comp_eq

theorem d_fuselage_planform_area__cabin_height (bwb_passenger_leading_edge_sweep
    fuselage_avg_diameter fuselage_pressurized_width_additional fuselage_tail_fineness nose_length
    cabin_height fuselage_station_aft : ℝ) (h0 : cos (bwb_passenger_leading_edge_sweep / (180 /
    π)) ≠ 0) (h1 : tan (bwb_passenger_leading_edge_sweep / (180 / π)) ≠ 0) :
    HasDerivAt (fun t => out_fuselage_planform_area bwb_passenger_leading_edge_sweep fuselage_avg_diameter fuselage_pressurized_width_additional fuselage_tail_fineness nose_length t fuselage_station_aft) (J_fuselage_planform_area__cabin_height fuselage_avg_diameter fuselage_pressurized_width_additional fuselage_tail_fineness) cabin_height := by
  simp only [out_fuselage_planform_area, J_fuselage_planform_area__cabin_height, d_tail_pf_area_d_cabin_height, area_body_planform, area_aftbody_planform, aftbody_len, area_cabin, area_aftbody, area_forebody, forebody_len, cabin_width, area_nose_planform, nose_width, rad2deg]
  (apply hasDerivAt_of_eq; on_goal 1 => (repeat' comp_step))
  all_goals try comp_side
  all_goals try simp only [mul_zero, zero_mul, add_zero, zero_add, sub_zero, zero_sub, mul_one, one_mul]
  all_goals try push_cast
  all_goals comp_eq

theorem d_fuselage_planform_area__fuselage_station_aft (bwb_passenger_leading_edge_sweep
    fuselage_avg_diameter fuselage_pressurized_width_additional fuselage_tail_fineness nose_length
    cabin_height fuselage_station_aft : ℝ) (h0 : cos (bwb_passenger_leading_edge_sweep / (180 /
    π)) ≠ 0) (h1 : tan (bwb_passenger_leading_edge_sweep / (180 / π)) ≠ 0) :
    HasDerivAt (fun t => out_fuselage_planform_area bwb_passenger_leading_edge_sweep fuselage_avg_diameter fuselage_pressurized_width_additional fuselage_tail_fineness nose_length cabin_height t) (J_fuselage_planform_area__fuselage_station_aft fuselage_avg_diameter) fuselage_station_aft := by
  simp only [out_fuselage_planform_area, J_fuselage_planform_area__fuselage_station_aft, area_body_planform, area_aftbody_planform, aftbody_len, area_cabin, area_aftbody, area_forebody, forebody_len, cabin_width, area_nose_planform, nose_width, rad2deg]
  (apply hasDerivAt_of_eq; on_goal 1 => (repeat' comp_step))
  all_goals try comp_side
  all_goals try simp only [mul_zero, zero_mul, add_zero, zero_add, sub_zero, zero_sub, mul_one, one_mul]
  all_goals try push_cast
  all_goals comp_eq

/-- Every partial derivative set by `BWBFuselageParameters2` is the derivative of its output. -/
theorem partials (bwb_passenger_leading_edge_sweep fuselage_avg_diameter
    fuselage_pressurized_width_additional fuselage_pilot_compartment_length fuselage_tail_fineness
    nose_length cabin_height fuselage_station_aft : ℝ) (h0 : cos (bwb_passenger_leading_edge_sweep
    / (180 / π)) ≠ 0) (h1 : tan (bwb_passenger_leading_edge_sweep / (180 / π)) ≠ 0) :
    HasDerivAt (fun t => out_cabin_len t nose_length fuselage_station_aft)
      (J_cabin_len__fuselage_pilot_compartment_length) fuselage_pilot_compartment_length ∧
    HasDerivAt (fun t => out_cabin_len fuselage_pilot_compartment_length t fuselage_station_aft)
      (J_cabin_len__nose_length) nose_length ∧
    HasDerivAt (fun t => out_cabin_len fuselage_pilot_compartment_length nose_length t)
      (J_cabin_len__fuselage_station_aft) fuselage_station_aft ∧
    HasDerivAt (fun t => out_forebody_len t fuselage_avg_diameter
      fuselage_pressurized_width_additional) (J_forebody_len__bwb_passenger_leading_edge_sweep
      bwb_passenger_leading_edge_sweep fuselage_avg_diameter
      fuselage_pressurized_width_additional) bwb_passenger_leading_edge_sweep ∧
    HasDerivAt (fun t => out_forebody_len bwb_passenger_leading_edge_sweep t
      fuselage_pressurized_width_additional) (J_forebody_len__fuselage_avg_diameter
      bwb_passenger_leading_edge_sweep) fuselage_avg_diameter ∧
    HasDerivAt (fun t => out_forebody_len bwb_passenger_leading_edge_sweep fuselage_avg_diameter t)
      (J_forebody_len__fuselage_pressurized_width_additional bwb_passenger_leading_edge_sweep)
      fuselage_pressurized_width_additional ∧
    HasDerivAt (fun t => out_aftbody_len t cabin_height) (J_aftbody_len__fuselage_tail_fineness
      cabin_height) fuselage_tail_fineness ∧
    HasDerivAt (fun t => out_aftbody_len fuselage_tail_fineness t) (J_aftbody_len__cabin_height
      fuselage_tail_fineness) cabin_height ∧
    HasDerivAt (fun t => out_nose_area t nose_length) (J_nose_area__bwb_passenger_leading_edge_sweep
      bwb_passenger_leading_edge_sweep nose_length) bwb_passenger_leading_edge_sweep ∧
    HasDerivAt (fun t => out_nose_area bwb_passenger_leading_edge_sweep t) (J_nose_area__nose_length
      bwb_passenger_leading_edge_sweep nose_length) nose_length ∧
    HasDerivAt (fun t => out_fuselage_cabin_area t fuselage_avg_diameter
      fuselage_pressurized_width_additional nose_length fuselage_station_aft)
      (J_fuselage_cabin_area__bwb_passenger_leading_edge_sweep bwb_passenger_leading_edge_sweep
      fuselage_avg_diameter fuselage_pressurized_width_additional nose_length)
      bwb_passenger_leading_edge_sweep ∧
    HasDerivAt (fun t => out_fuselage_cabin_area bwb_passenger_leading_edge_sweep t
      fuselage_pressurized_width_additional nose_length fuselage_station_aft)
      (J_fuselage_cabin_area__fuselage_avg_diameter bwb_passenger_leading_edge_sweep
      fuselage_avg_diameter fuselage_pressurized_width_additional nose_length
      fuselage_station_aft) fuselage_avg_diameter ∧
    HasDerivAt (fun t => out_fuselage_cabin_area bwb_passenger_leading_edge_sweep
      fuselage_avg_diameter t nose_length fuselage_station_aft)
      (J_fuselage_cabin_area__fuselage_pressurized_width_additional
      bwb_passenger_leading_edge_sweep fuselage_avg_diameter nose_length)
      fuselage_pressurized_width_additional ∧
    HasDerivAt (fun t => out_fuselage_cabin_area bwb_passenger_leading_edge_sweep
      fuselage_avg_diameter fuselage_pressurized_width_additional t fuselage_station_aft)
      (J_fuselage_cabin_area__nose_length bwb_passenger_leading_edge_sweep fuselage_avg_diameter
      fuselage_pressurized_width_additional nose_length) nose_length ∧
    HasDerivAt (fun t => out_fuselage_cabin_area bwb_passenger_leading_edge_sweep
      fuselage_avg_diameter fuselage_pressurized_width_additional nose_length t)
      (J_fuselage_cabin_area__fuselage_station_aft fuselage_avg_diameter) fuselage_station_aft ∧
    HasDerivAt (fun t => out_fuselage_planform_area t fuselage_avg_diameter
      fuselage_pressurized_width_additional fuselage_tail_fineness nose_length cabin_height
      fuselage_station_aft) (J_fuselage_planform_area__bwb_passenger_leading_edge_sweep
      bwb_passenger_leading_edge_sweep fuselage_avg_diameter fuselage_pressurized_width_additional
      nose_length) bwb_passenger_leading_edge_sweep ∧
    HasDerivAt (fun t => out_fuselage_planform_area bwb_passenger_leading_edge_sweep t
      fuselage_pressurized_width_additional fuselage_tail_fineness nose_length cabin_height
      fuselage_station_aft) (J_fuselage_planform_area__fuselage_avg_diameter
      bwb_passenger_leading_edge_sweep fuselage_avg_diameter fuselage_pressurized_width_additional
      fuselage_tail_fineness nose_length cabin_height fuselage_station_aft) fuselage_avg_diameter ∧
    HasDerivAt (fun t => out_fuselage_planform_area bwb_passenger_leading_edge_sweep
      fuselage_avg_diameter t fuselage_tail_fineness nose_length cabin_height
      fuselage_station_aft) (J_fuselage_planform_area__fuselage_pressurized_width_additional
      bwb_passenger_leading_edge_sweep fuselage_avg_diameter fuselage_tail_fineness nose_length
      cabin_height) fuselage_pressurized_width_additional ∧
    HasDerivAt (fun t => out_fuselage_planform_area bwb_passenger_leading_edge_sweep
      fuselage_avg_diameter fuselage_pressurized_width_additional t nose_length cabin_height
      fuselage_station_aft) (J_fuselage_planform_area__fuselage_tail_fineness
      fuselage_avg_diameter fuselage_pressurized_width_additional cabin_height)
      fuselage_tail_fineness ∧
    HasDerivAt (fun t => out_fuselage_planform_area bwb_passenger_leading_edge_sweep
      fuselage_avg_diameter fuselage_pressurized_width_additional fuselage_tail_fineness t
      cabin_height fuselage_station_aft) (J_fuselage_planform_area__nose_length
      bwb_passenger_leading_edge_sweep fuselage_avg_diameter fuselage_pressurized_width_additional
      nose_length) nose_length ∧
    HasDerivAt (fun t => out_fuselage_planform_area bwb_passenger_leading_edge_sweep
      fuselage_avg_diameter fuselage_pressurized_width_additional fuselage_tail_fineness
      nose_length t fuselage_station_aft) (J_fuselage_planform_area__cabin_height
      fuselage_avg_diameter fuselage_pressurized_width_additional fuselage_tail_fineness)
      cabin_height ∧
    HasDerivAt (fun t => out_fuselage_planform_area bwb_passenger_leading_edge_sweep
      fuselage_avg_diameter fuselage_pressurized_width_additional fuselage_tail_fineness
      nose_length cabin_height t) (J_fuselage_planform_area__fuselage_station_aft
      fuselage_avg_diameter) fuselage_station_aft :=
  ⟨d_cabin_len__fuselage_pilot_compartment_length _ _ _, d_cabin_len__nose_length _ _ _,
    d_cabin_len__fuselage_station_aft _ _ _, d_forebody_len__bwb_passenger_leading_edge_sweep _ _
    _ h0 h0, d_forebody_len__fuselage_avg_diameter _ _ _ h0 h0,
    d_forebody_len__fuselage_pressurized_width_additional _ _ _ h0 h0,
    d_aftbody_len__fuselage_tail_fineness _ _, d_aftbody_len__cabin_height _ _,
    d_nose_area__bwb_passenger_leading_edge_sweep _ _ h0 h1 h0 h1, d_nose_area__nose_length _ _ h0
    h1 h0 h1, d_fuselage_cabin_area__bwb_passenger_leading_edge_sweep _ _ _ _ _ h0 h1 h0 h1,
    d_fuselage_cabin_area__fuselage_avg_diameter _ _ _ _ _ h0 h1 h0 h1,
    d_fuselage_cabin_area__fuselage_pressurized_width_additional _ _ _ _ _ h0 h1 h0 h1,
    d_fuselage_cabin_area__nose_length _ _ _ _ _ h0 h1 h0 h1,
    d_fuselage_cabin_area__fuselage_station_aft _ _ _ _ _ h0 h1,
    d_fuselage_planform_area__bwb_passenger_leading_edge_sweep _ _ _ _ _ _ _ h0 h1 h0 h1,
    d_fuselage_planform_area__fuselage_avg_diameter _ _ _ _ _ _ _ h0 h1 h0 h1,
    d_fuselage_planform_area__fuselage_pressurized_width_additional _ _ _ _ _ _ _ h0 h1 h0 h1,
    d_fuselage_planform_area__fuselage_tail_fineness _ _ _ _ _ _ _ h0 h1,
    d_fuselage_planform_area__nose_length _ _ _ _ _ _ _ h0 h1 h0 h1,
    d_fuselage_planform_area__cabin_height _ _ _ _ _ _ _ h0 h1,
    d_fuselage_planform_area__fuselage_station_aft _ _ _ _ _ _ _ h0 h1⟩

end Verif.Comp.GeometryGaspBasedFuselage.BWBFuselageParameters2

