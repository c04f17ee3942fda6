import Verif.Lemmas.CompDeriv

/-! # Partial derivatives of the components of `aviary/subsystems/geometry/gasp_based/fuselage.py`

One node of a vector component is modelled over the real numbers.  Each option that selects a
branch is fixed, one namespace per choice.  `out_x` is the output `x`, `J_x__y` the entry that
`compute_partials` (or `declare_partials` with `val`) assigns, `d_x__y` the proof that the entry is
the derivative.  Inputs an output does not take as argument have no influence on it.

* `BWBFuselageSize`: entries that differ from the derivative: `fuselage_wetted_area` by
  `fuselage_pressurized_width_additional` -/

set_option linter.all false

namespace Verif.Comp.GeometryGaspBasedFuselage.BWBFuselageSize
open Real

/-- aviary/subsystems/geometry/gasp_based/fuselage.py:1009 -/
noncomputable def fuselage_length (fuselage_pilot_compartment_length cabin_len nose_length aftbody_len : ℝ) : ℝ :=
  ((nose_length + fuselage_pilot_compartment_length) + cabin_len) + aftbody_len

/-- aviary/subsystems/geometry/gasp_based/fuselage.py:1023 -/
noncomputable def diag_a_c (aftbody_len cabin_height : ℝ) : ℝ :=
  sqrt ((aftbody_len ^ 2) + ((cabin_height / 2) ^ 2))

/-- aviary/subsystems/geometry/gasp_based/fuselage.py:1024 -/
noncomputable def diag_a_a (aftbody_len fuselage_pressurized_width_additional : ℝ) : ℝ :=
  sqrt ((aftbody_len ^ 2) + ((fuselage_pressurized_width_additional / 2) ^ 2))

/-- aviary/subsystems/geometry/gasp_based/fuselage.py:1025 -/
noncomputable def diag_f_b (fuselage_avg_diameter forebody_len : ℝ) : ℝ :=
  sqrt ((forebody_len ^ 2) + ((fuselage_avg_diameter / 2) ^ 2))

/-- aviary/subsystems/geometry/gasp_based/fuselage.py:1026 -/
noncomputable def diag_f_c (cabin_height forebody_len : ℝ) : ℝ :=
  sqrt ((forebody_len ^ 2) + ((cabin_height / 2) ^ 2))

/-- aviary/subsystems/geometry/gasp_based/fuselage.py:1029 -/
noncomputable def forebody_surface_area (fuselage_avg_diameter cabin_height forebody_len : ℝ) : ℝ :=
  (cabin_height * (diag_f_b fuselage_avg_diameter forebody_len)) + (fuselage_avg_diameter *
    (diag_f_c cabin_height forebody_len))

/-- aviary/subsystems/geometry/gasp_based/fuselage.py:1032 -/
noncomputable def cabin_surface_area (fuselage_avg_diameter fuselage_station_aft forebody_len nose_area : ℝ) : ℝ :=
  2 * ((fuselage_avg_diameter * (fuselage_station_aft - forebody_len)) + nose_area)

/-- aviary/subsystems/geometry/gasp_based/fuselage.py:1034 -/
noncomputable def body_width_pass (fuselage_avg_diameter fuselage_pressurized_width_additional : ℝ) : ℝ :=
  fuselage_avg_diameter - fuselage_pressurized_width_additional

/-- aviary/subsystems/geometry/gasp_based/fuselage.py:1035 -/
noncomputable def aftbody_surface_area (aftbody_len fuselage_avg_diameter fuselage_pressurized_width_additional cabin_height : ℝ) : ℝ :=
  ((fuselage_avg_diameter + (body_width_pass fuselage_avg_diameter
    fuselage_pressurized_width_additional)) * (diag_a_c aftbody_len cabin_height)) +
    (cabin_height * (diag_a_a aftbody_len fuselage_pressurized_width_additional))

/-- aviary/subsystems/geometry/gasp_based/fuselage.py:1037 -/
noncomputable def fuselage_wetted_area (aftbody_len fuselage_avg_diameter fuselage_pressurized_width_additional fuselage_station_aft cabin_height forebody_len nose_area : ℝ) : ℝ :=
  ((forebody_surface_area fuselage_avg_diameter cabin_height forebody_len) + (cabin_surface_area
    fuselage_avg_diameter fuselage_station_aft forebody_len nose_area)) + (aftbody_surface_area
    aftbody_len fuselage_avg_diameter fuselage_pressurized_width_additional cabin_height)

/-- aviary/subsystems/geometry/gasp_based/fuselage.py:1039 -/
noncomputable def fuselage_wetted_area_2 (aftbody_len fuselage_avg_diameter fuselage_pressurized_width_additional fuselage_wetted_area_scaler fuselage_station_aft cabin_height forebody_len nose_area : ℝ) : ℝ :=
  (fuselage_wetted_area aftbody_len fuselage_avg_diameter fuselage_pressurized_width_additional
    fuselage_station_aft cabin_height forebody_len nose_area) * fuselage_wetted_area_scaler

/-- aviary/subsystems/geometry/gasp_based/fuselage.py:1073 -/
noncomputable def d_fb_area_d_cabin_height (fuselage_avg_diameter cabin_height forebody_len : ℝ) : ℝ :=
  (diag_f_b fuselage_avg_diameter forebody_len) + (((fuselage_avg_diameter * cabin_height) * (1
    / 4)) / (diag_f_c cabin_height forebody_len))

/-- aviary/subsystems/geometry/gasp_based/fuselage.py:1074 -/
noncomputable def d_fb_area_d_fb_len (fuselage_avg_diameter cabin_height forebody_len : ℝ) : ℝ :=
  ((cabin_height * forebody_len) / (diag_f_b fuselage_avg_diameter forebody_len)) +
    ((fuselage_avg_diameter * forebody_len) / (diag_f_c cabin_height forebody_len))

/-- aviary/subsystems/geometry/gasp_based/fuselage.py:1077 -/
noncomputable def d_fb_area_d_wody_width (fuselage_avg_diameter cabin_height forebody_len : ℝ) : ℝ :=
  (((cabin_height * fuselage_avg_diameter) * (1 / 4)) / (diag_f_b fuselage_avg_diameter
    forebody_len)) + (diag_f_c cabin_height forebody_len)

/-- aviary/subsystems/geometry/gasp_based/fuselage.py:1079 -/
noncomputable def d_cabin_area_d_body_width (fuselage_station_aft forebody_len : ℝ) : ℝ :=
  2 * (fuselage_station_aft - forebody_len)

/-- aviary/subsystems/geometry/gasp_based/fuselage.py:1080 -/
noncomputable def d_cabin_area_d_station_aft (fuselage_avg_diameter : ℝ) : ℝ :=
  2 * fuselage_avg_diameter

/-- aviary/subsystems/geometry/gasp_based/fuselage.py:1081 -/
noncomputable def d_cabin_area_d_fb_len (fuselage_avg_diameter : ℝ) : ℝ :=
  (-2) * fuselage_avg_diameter

/-- aviary/subsystems/geometry/gasp_based/fuselage.py:1084 -/
noncomputable def d_aft_d_body_width (aftbody_len cabin_height : ℝ) : ℝ :=
  2 * (diag_a_c aftbody_len cabin_height)

/-- aviary/subsystems/geometry/gasp_based/fuselage.py:1085 -/
noncomputable def d_aft_d_additional_width (aftbody_len fuselage_pressurized_width_additional cabin_height : ℝ) : ℝ :=
  (-(diag_a_c aftbody_len cabin_height)) + (((cabin_height *
    fuselage_pressurized_width_additional) * (1 / 4)) * (diag_a_c aftbody_len cabin_height))

/-- aviary/subsystems/geometry/gasp_based/fuselage.py:1086 -/
noncomputable def d_aft_d_aft_len (aftbody_len fuselage_avg_diameter fuselage_pressurized_width_additional cabin_height : ℝ) : ℝ :=
  ((((2 * fuselage_avg_diameter) - fuselage_pressurized_width_additional) * aftbody_len) /
    (diag_a_c aftbody_len cabin_height)) + ((cabin_height * aftbody_len) / (diag_a_a aftbody_len
    fuselage_pressurized_width_additional))

/-- aviary/subsystems/geometry/gasp_based/fuselage.py:1089 -/
noncomputable def d_aft_d_cabin_height (aftbody_len fuselage_avg_diameter fuselage_pressurized_width_additional cabin_height : ℝ) : ℝ :=
  (((((2 * fuselage_avg_diameter) - fuselage_pressurized_width_additional) * cabin_height) * (1
    / 4)) / (diag_a_c aftbody_len cabin_height)) + (diag_a_a aftbody_len
    fuselage_pressurized_width_additional)

/-- Output `fuselage_length` of `BWBFuselageSize.compute`, aviary/subsystems/geometry/gasp_based/fuselage.py:1010 -/
noncomputable def out_fuselage_length (fuselage_pilot_compartment_length cabin_len nose_length aftbody_len : ℝ) : ℝ :=
  fuselage_length fuselage_pilot_compartment_length cabin_len nose_length aftbody_len

/-- Output `tailboom_length` of `BWBFuselageSize.compute`, aviary/subsystems/geometry/gasp_based/fuselage.py:1013 -/
noncomputable def out_tailboom_length (fuselage_pilot_compartment_length cabin_len nose_length aftbody_len : ℝ) : ℝ :=
  fuselage_length fuselage_pilot_compartment_length cabin_len nose_length aftbody_len

/-- Output `fuselage_wetted_area` of `BWBFuselageSize.compute`, aviary/subsystems/geometry/gasp_based/fuselage.py:1041 -/
noncomputable def out_fuselage_wetted_area (aftbody_len fuselage_avg_diameter fuselage_pressurized_width_additional fuselage_wetted_area_scaler fuselage_station_aft cabin_height forebody_len nose_area : ℝ) : ℝ :=
  fuselage_wetted_area_2 aftbody_len fuselage_avg_diameter fuselage_pressurized_width_additional
    fuselage_wetted_area_scaler fuselage_station_aft cabin_height forebody_len nose_area

/-- Partial of `fuselage_length` with respect to `fuselage_pilot_compartment_length` as set by `BWBFuselageSize`, aviary/subsystems/geometry/gasp_based/fuselage.py:1044 -/
noncomputable def J_fuselage_length__fuselage_pilot_compartment_length : ℝ := 1

/-- Partial of `fuselage_length` with respect to `nose_length` as set by `BWBFuselageSize`, aviary/subsystems/geometry/gasp_based/fuselage.py:1045 -/
noncomputable def J_fuselage_length__nose_length : ℝ := 1

/-- Partial of `fuselage_length` with respect to `aftbody_len` as set by `BWBFuselageSize`, aviary/subsystems/geometry/gasp_based/fuselage.py:1046 -/
noncomputable def J_fuselage_length__aftbody_len : ℝ := 1

/-- Partial of `fuselage_length` with respect to `cabin_len` as set by `BWBFuselageSize`, aviary/subsystems/geometry/gasp_based/fuselage.py:1047 -/
noncomputable def J_fuselage_length__cabin_len : ℝ := 1

/-- Partial of `tailboom_length` with respect to `fuselage_pilot_compartment_length` as set by `BWBFuselageSize`, aviary/subsystems/geometry/gasp_based/fuselage.py:1049 -/
noncomputable def J_tailboom_length__fuselage_pilot_compartment_length : ℝ := 1

/-- Partial of `tailboom_length` with respect to `nose_length` as set by `BWBFuselageSize`, aviary/subsystems/geometry/gasp_based/fuselage.py:1050 -/
noncomputable def J_tailboom_length__nose_length : ℝ := 1

/-- Partial of `tailboom_length` with respect to `aftbody_len` as set by `BWBFuselageSize`, aviary/subsystems/geometry/gasp_based/fuselage.py:1051 -/
noncomputable def J_tailboom_length__aftbody_len : ℝ := 1

/-- Partial of `tailboom_length` with respect to `cabin_len` as set by `BWBFuselageSize`, aviary/subsystems/geometry/gasp_based/fuselage.py:1052 -/
noncomputable def J_tailboom_length__cabin_len : ℝ := 1

/-- Partial of `fuselage_wetted_area` with respect to `fuselage_wetted_area_scaler` as set by `BWBFuselageSize`, aviary/subsystems/geometry/gasp_based/fuselage.py:1098 -/
noncomputable def J_fuselage_wetted_area__fuselage_wetted_area_scaler (aftbody_len fuselage_avg_diameter fuselage_pressurized_width_additional fuselage_station_aft cabin_height forebody_len nose_area : ℝ) : ℝ :=
  ((forebody_surface_area fuselage_avg_diameter cabin_height forebody_len) + (cabin_surface_area
    fuselage_avg_diameter fuselage_station_aft forebody_len nose_area)) + (aftbody_surface_area
    aftbody_len fuselage_avg_diameter fuselage_pressurized_width_additional cabin_height)

/-- Partial of `fuselage_wetted_area` with respect to `fuselage_pressurized_width_additional` as set by `BWBFuselageSize`, aviary/subsystems/geometry/gasp_based/fuselage.py:1101 -/
noncomputable def J_fuselage_wetted_area__fuselage_pressurized_width_additional (aftbody_len fuselage_pressurized_width_additional fuselage_wetted_area_scaler cabin_height : ℝ) : ℝ :=
  (d_aft_d_additional_width aftbody_len fuselage_pressurized_width_additional cabin_height) *
    fuselage_wetted_area_scaler

/-- Partial of `fuselage_wetted_area` with respect to `fuselage_avg_diameter` as set by `BWBFuselageSize`, aviary/subsystems/geometry/gasp_based/fuselage.py:1104 -/
noncomputable def J_fuselage_wetted_area__fuselage_avg_diameter (aftbody_len fuselage_avg_diameter fuselage_wetted_area_scaler fuselage_station_aft cabin_height forebody_len : ℝ) : ℝ :=
  fuselage_wetted_area_scaler * (((d_fb_area_d_wody_width fuselage_avg_diameter cabin_height
    forebody_len) + (d_cabin_area_d_body_width fuselage_station_aft forebody_len)) +
    (d_aft_d_body_width aftbody_len cabin_height))

/-- Partial of `fuselage_wetted_area` with respect to `cabin_height` as set by `BWBFuselageSize`, aviary/subsystems/geometry/gasp_based/fuselage.py:1108 -/
noncomputable def J_fuselage_wetted_area__cabin_height (aftbody_len fuselage_avg_diameter fuselage_pressurized_width_additional fuselage_wetted_area_scaler cabin_height forebody_len : ℝ) : ℝ :=
  ((d_fb_area_d_cabin_height fuselage_avg_diameter cabin_height forebody_len) +
    (d_aft_d_cabin_height aftbody_len fuselage_avg_diameter
    fuselage_pressurized_width_additional cabin_height)) * fuselage_wetted_area_scaler

/-- Partial of `fuselage_wetted_area` with respect to `forebody_len` as set by `BWBFuselageSize`, aviary/subsystems/geometry/gasp_based/fuselage.py:1111 -/
noncomputable def J_fuselage_wetted_area__forebody_len (fuselage_avg_diameter fuselage_wetted_area_scaler cabin_height forebody_len : ℝ) : ℝ :=
  ((d_fb_area_d_fb_len fuselage_avg_diameter cabin_height forebody_len) + (d_cabin_area_d_fb_len
    fuselage_avg_diameter)) * fuselage_wetted_area_scaler

/-- Partial of `fuselage_wetted_area` with respect to `fuselage_station_aft` as set by `BWBFuselageSize`, aviary/subsystems/geometry/gasp_based/fuselage.py:1114 -/
noncomputable def J_fuselage_wetted_area__fuselage_station_aft (fuselage_avg_diameter fuselage_wetted_area_scaler : ℝ) : ℝ :=
  (d_cabin_area_d_station_aft fuselage_avg_diameter) * fuselage_wetted_area_scaler

/-- Partial of `fuselage_wetted_area` with respect to `aftbody_len` as set by `BWBFuselageSize`, aviary/subsystems/geometry/gasp_based/fuselage.py:1117 -/
noncomputable def J_fuselage_wetted_area__aftbody_len (aftbody_len fuselage_avg_diameter fuselage_pressurized_width_additional fuselage_wetted_area_scaler cabin_height : ℝ) : ℝ :=
  (d_aft_d_aft_len aftbody_len fuselage_avg_diameter fuselage_pressurized_width_additional
    cabin_height) * fuselage_wetted_area_scaler

/-- Partial of `fuselage_wetted_area` with respect to `nose_area` as set by `BWBFuselageSize`, aviary/subsystems/geometry/gasp_based/fuselage.py:1118 -/
noncomputable def J_fuselage_wetted_area__nose_area (fuselage_wetted_area_scaler : ℝ) : ℝ :=
  2 * fuselage_wetted_area_scaler

theorem d_fuselage_length__fuselage_pilot_compartment_length (fuselage_pilot_compartment_length
    cabin_len nose_length aftbody_len : ℝ)  :
    HasDerivAt (fun t => out_fuselage_length t cabin_len nose_length aftbody_len) (J_fuselage_length__fuselage_pilot_compartment_length) fuselage_pilot_compartment_length := by
  simp only [out_fuselage_length, J_fuselage_length__fuselage_pilot_compartment_length, fuselage_length]
  (apply hasDerivAt_of_eq; on_goal 1 => (repeat' comp_step))
  all_goals try comp_side
  all_goals try simp only [mul_zero, zero_mul, add_zero, zero_add, sub_zero, zero_sub, mul_one, one_mul]
  all_goals try push_cast
  all_goals comp_eq

theorem d_fuselage_length__cabin_len (fuselage_pilot_compartment_length cabin_len nose_length
    aftbody_len : ℝ)  :
    HasDerivAt (fun t => out_fuselage_length fuselage_pilot_compartment_length t nose_length aftbody_len) (J_fuselage_length__cabin_len) cabin_len := by
  simp only [out_fuselage_length, J_fuselage_length__cabin_len, fuselage_length]
  (apply hasDerivAt_of_eq; on_goal 1 => (repeat' comp_step))
  all_goals try comp_side
  all_goals try simp only [mul_zero, zero_mul, add_zero, zero_add, sub_zero, zero_sub, mul_one, one_mul]
  all_goals try push_cast
  all_goals comp_eq

theorem d_fuselage_length__nose_length (fuselage_pilot_compartment_length cabin_len nose_length
    aftbody_len : ℝ)  :
    HasDerivAt (fun t => out_fuselage_length fuselage_pilot_compartment_length cabin_len t aftbody_len) (J_fuselage_length__nose_length) nose_length := by
  simp only [out_fuselage_length, J_fuselage_length__nose_length, fuselage_length]
  (apply hasDerivAt_of_eq; on_goal 1 => (repeat' comp_step))
  all_goals try comp_side
  all_goals try simp only [mul_zero, zero_mul, add_zero, zero_add, sub_zero, zero_sub, mul_one, one_mul]
  all_goals try push_cast
  all_goals comp_eq

theorem d_fuselage_length__aftbody_len (fuselage_pilot_compartment_length cabin_len nose_length
    aftbody_len : ℝ)  :
    HasDerivAt (fun t => out_fuselage_length fuselage_pilot_compartment_length cabin_len nose_length t) (J_fuselage_length__aftbody_len) aftbody_len := by
  simp only [out_fuselage_length, J_fuselage_length__aftbody_len, fuselage_length]
  (apply hasDerivAt_of_eq; on_goal 1 => (repeat' comp_step))
  all_goals try comp_side
  all_goals try simp only [mul_zero, zero_mul, add_zero, zero_add, sub_zero, zero_sub, mul_one, one_mul]
  all_goals try push_cast
  all_goals comp_eq

theorem d_tailboom_length__fuselage_pilot_compartment_length (fuselage_pilot_compartment_length
    cabin_len nose_length aftbody_len : ℝ)  :
    HasDerivAt (fun t => out_tailboom_length t cabin_len nose_length aftbody_len) (J_tailboom_length__fuselage_pilot_compartment_length) fuselage_pilot_compartment_length := by
  simp only [out_tailboom_length, J_tailboom_length__fuselage_pilot_compartment_length, fuselage_length]
  (apply hasDerivAt_of_eq; on_goal 1 => (repeat' comp_step))
  all_goals try comp_side
  all_goals try simp only [mul_zero, zero_mul, add_zero, zero_add, sub_zero, zero_sub, mul_one, one_mul]
  all_goals try push_cast
  all_goals comp_eq

theorem d_tailboom_length__cabin_len (fuselage_pilot_compartment_length cabin_len nose_length
    aftbody_len : ℝ)  :
    HasDerivAt (fun t => out_tailboom_length fuselage_pilot_compartment_length t nose_length aftbody_len) (J_tailboom_length__cabin_len) cabin_len := by
  simp only [out_tailboom_length, J_tailboom_length__cabin_len, fuselage_length]
  (apply hasDerivAt_of_eq; on_goal 1 => (repeat' comp_step))
  all_goals try comp_side
  all_goals try simp only [mul_zero, zero_mul, add_zero, zero_add, sub_zero, zero_sub, mul_one, one_mul]
  all_goals try push_cast
  all_goals comp_eq

theorem d_tailboom_length__nose_length (fuselage_pilot_compartment_length cabin_len nose_length
    aftbody_len : ℝ)  :
    HasDerivAt (fun t => out_tailboom_length fuselage_pilot_compartment_length cabin_len t aftbody_len) (J_tailboom_length__nose_length) nose_length := by
  simp only [out_tailboom_length, J_tailboom_length__nose_length, fuselage_length]
  (apply hasDerivAt_of_eq; on_goal 1 => (repeat' comp_step))
  all_goals try comp_side
  all_goals try simp only [mul_zero, zero_mul, add_zero, zero_add, sub_zero, zero_sub, mul_one, one_mul]
  all_goals try push_cast
  all_goals comp_eq

theorem d_tailboom_length__aftbody_len (fuselage_pilot_compartment_length cabin_len nose_length
    aftbody_len : ℝ)  :
    HasDerivAt (fun t => out_tailboom_length fuselage_pilot_compartment_length cabin_len nose_length t) (J_tailboom_length__aftbody_len) aftbody_len := by
  simp only [out_tailboom_length, J_tailboom_length__aftbody_len, fuselage_length]
  (apply hasDerivAt_of_eq; on_goal 1 => (repeat' comp_step))
  all_goals try comp_side
  all_goals try simp only [mul_zero, zero_mul, add_zero, zero_add, sub_zero, zero_sub, mul_one, one_mul]
  all_goals try push_cast
  all_goals comp_eq

theorem d_fuselage_wetted_area__aftbody_len (aftbody_len fuselage_avg_diameter
    fuselage_pressurized_width_additional fuselage_wetted_area_scaler fuselage_station_aft
    cabin_height forebody_len nose_area : ℝ) (h0 : 0 < fuselage_avg_diameter) (h1 : 0 <
    cabin_height) (h2 : 0 < fuselage_pressurized_width_additional) :
    HasDerivAt (fun t => out_fuselage_wetted_area t fuselage_avg_diameter fuselage_pressurized_width_additional fuselage_wetted_area_scaler fuselage_station_aft cabin_height forebody_len nose_area) (J_fuselage_wetted_area__aftbody_len aftbody_len fuselage_avg_diameter fuselage_pressurized_width_additional fuselage_wetted_area_scaler cabin_height) aftbody_len := by
  simp only [out_fuselage_wetted_area, J_fuselage_wetted_area__aftbody_len, d_aft_d_aft_len, fuselage_wetted_area_2, fuselage_wetted_area, aftbody_surface_area, diag_a_a, diag_a_c, body_width_pass, cabin_surface_area, forebody_surface_area, diag_f_c, diag_f_b, sqrt_eq_rpow]
  (apply hasDerivAt_of_eq; on_goal 1 => (repeat' comp_step))
  all_goals try comp_side
  all_goals try simp (disch := first | assumption | positivity) only [div_mul_eq_div_div, div_half, inv_half]
  all_goals try simp only [mul_zero, zero_mul, add_zero, zero_add, sub_zero, zero_sub, mul_one, one_mul]
  all_goals try push_cast
  all_goals comp_eq

theorem d_fuselage_wetted_area__fuselage_avg_diameter (aftbody_len fuselage_avg_diameter
    fuselage_pressurized_width_additional fuselage_wetted_area_scaler fuselage_station_aft
    cabin_height forebody_len nose_area : ℝ) (h0 : 0 < fuselage_avg_diameter) (h1 : 0 <
    cabin_height) (h2 : 0 < fuselage_pressurized_width_additional) :
    HasDerivAt (fun t => out_fuselage_wetted_area aftbody_len t fuselage_pressurized_width_additional fuselage_wetted_area_scaler fuselage_station_aft cabin_height forebody_len nose_area) (J_fuselage_wetted_area__fuselage_avg_diameter aftbody_len fuselage_avg_diameter fuselage_wetted_area_scaler fuselage_station_aft cabin_height forebody_len) fuselage_avg_diameter := by
  simp only [out_fuselage_wetted_area, J_fuselage_wetted_area__fuselage_avg_diameter, d_aft_d_body_width, d_cabin_area_d_body_width, d_fb_area_d_wody_width, fuselage_wetted_area_2, fuselage_wetted_area, aftbody_surface_area, diag_a_a, diag_a_c, body_width_pass, cabin_surface_area, forebody_surface_area, diag_f_c, diag_f_b, sqrt_eq_rpow]
  (apply hasDerivAt_of_eq; on_goal 1 => (repeat' comp_step))
  all_goals try comp_side
  all_goals try simp (disch := first | assumption | positivity) only [div_mul_eq_div_div, div_half, inv_half]
  all_goals try simp only [mul_zero, zero_mul, add_zero, zero_add, sub_zero, zero_sub, mul_one, one_mul]
  all_goals try push_cast
  all_goals comp_eq

theorem d_fuselage_wetted_area__fuselage_wetted_area_scaler (aftbody_len fuselage_avg_diameter
    fuselage_pressurized_width_additional fuselage_wetted_area_scaler fuselage_station_aft
    cabin_height forebody_len nose_area : ℝ) (h0 : 0 < fuselage_avg_diameter) (h1 : 0 <
    cabin_height) (h2 : 0 < fuselage_pressurized_width_additional) :
    HasDerivAt (fun t => out_fuselage_wetted_area aftbody_len fuselage_avg_diameter fuselage_pressurized_width_additional t fuselage_station_aft cabin_height forebody_len nose_area) (J_fuselage_wetted_area__fuselage_wetted_area_scaler aftbody_len fuselage_avg_diameter fuselage_pressurized_width_additional fuselage_station_aft cabin_height forebody_len nose_area) fuselage_wetted_area_scaler := by
  simp only [out_fuselage_wetted_area, J_fuselage_wetted_area__fuselage_wetted_area_scaler, fuselage_wetted_area_2, fuselage_wetted_area, aftbody_surface_area, diag_a_a, diag_a_c, body_width_pass, cabin_surface_area, forebody_surface_area, diag_f_c, diag_f_b, sqrt_eq_rpow]
  (apply hasDerivAt_of_eq; on_goal 1 => (repeat' comp_step))
  all_goals try comp_side
  all_goals try simp (disch := first | assumption | positivity) only [div_mul_eq_div_div, div_half, inv_half]
  all_goals try simp only [mul_zero, zero_mul, add_zero, zero_add, sub_zero, zero_sub, mul_one, one_mul]
  all_goals try push_cast
  all_goals comp_eq

theorem d_fuselage_wetted_area__fuselage_station_aft (aftbody_len fuselage_avg_diameter
    fuselage_pressurized_width_additional fuselage_wetted_area_scaler fuselage_station_aft
    cabin_height forebody_len nose_area : ℝ) (h0 : 0 < fuselage_avg_diameter) (h1 : 0 <
    cabin_height) (h2 : 0 < fuselage_pressurized_width_additional) :
    HasDerivAt (fun t => out_fuselage_wetted_area aftbody_len fuselage_avg_diameter fuselage_pressurized_width_additional fuselage_wetted_area_scaler t cabin_height forebody_len nose_area) (J_fuselage_wetted_area__fuselage_station_aft fuselage_avg_diameter fuselage_wetted_area_scaler) fuselage_station_aft := by
  simp only [out_fuselage_wetted_area, J_fuselage_wetted_area__fuselage_station_aft, d_cabin_area_d_station_aft, fuselage_wetted_area_2, fuselage_wetted_area, aftbody_surface_area, diag_a_a, diag_a_c, body_width_pass, cabin_surface_area, forebody_surface_area, diag_f_c, diag_f_b, sqrt_eq_rpow]
  (apply hasDerivAt_of_eq; on_goal 1 => (repeat' comp_step))
  all_goals try comp_side
  all_goals try simp (disch := first | assumption | positivity) only [div_mul_eq_div_div, div_half, inv_half]
  all_goals try simp only [mul_zero, zero_mul, add_zero, zero_add, sub_zero, zero_sub, mul_one, one_mul]
  all_goals try push_cast
  all_goals comp_eq

theorem d_fuselage_wetted_area__cabin_height (aftbody_len fuselage_avg_diameter
    fuselage_pressurized_width_additional fuselage_wetted_area_scaler fuselage_station_aft
    cabin_height forebody_len nose_area : ℝ) (h0 : 0 < fuselage_avg_diameter) (h1 : 0 <
    cabin_height) (h2 : 0 < fuselage_pressurized_width_additional) :
    HasDerivAt (fun t => out_fuselage_wetted_area aftbody_len fuselage_avg_diameter fuselage_pressurized_width_additional fuselage_wetted_area_scaler fuselage_station_aft t forebody_len nose_area) (J_fuselage_wetted_area__cabin_height aftbody_len fuselage_avg_diameter fuselage_pressurized_width_additional fuselage_wetted_area_scaler cabin_height forebody_len) cabin_height := by
  simp only [out_fuselage_wetted_area, J_fuselage_wetted_area__cabin_height, d_aft_d_cabin_height, d_fb_area_d_cabin_height, fuselage_wetted_area_2, fuselage_wetted_area, aftbody_surface_area, diag_a_a, diag_a_c, body_width_pass, cabin_surface_area, forebody_surface_area, diag_f_c, diag_f_b, sqrt_eq_rpow]
  (apply hasDerivAt_of_eq; on_goal 1 => (repeat' comp_step))
  all_goals try comp_side
  all_goals try simp (disch := first | assumption | positivity) only [div_mul_eq_div_div, div_half, inv_half]
  all_goals try simp only [mul_zero, zero_mul, add_zero, zero_add, sub_zero, zero_sub, mul_one, one_mul]
  all_goals try push_cast
  all_goals comp_eq

theorem d_fuselage_wetted_area__forebody_len (aftbody_len fuselage_avg_diameter
    fuselage_pressurized_width_additional fuselage_wetted_area_scaler fuselage_station_aft
    cabin_height forebody_len nose_area : ℝ) (h0 : 0 < fuselage_avg_diameter) (h1 : 0 <
    cabin_height) (h2 : 0 < fuselage_pressurized_width_additional) :
    HasDerivAt (fun t => out_fuselage_wetted_area aftbody_len fuselage_avg_diameter fuselage_pressurized_width_additional fuselage_wetted_area_scaler fuselage_station_aft cabin_height t nose_area) (J_fuselage_wetted_area__forebody_len fuselage_avg_diameter fuselage_wetted_area_scaler cabin_height forebody_len) forebody_len := by
  simp only [out_fuselage_wetted_area, J_fuselage_wetted_area__forebody_len, d_cabin_area_d_fb_len, d_fb_area_d_fb_len, fuselage_wetted_area_2, fuselage_wetted_area, aftbody_surface_area, diag_a_a, diag_a_c, body_width_pass, cabin_surface_area, forebody_surface_area, diag_f_c, diag_f_b, sqrt_eq_rpow]
  (apply hasDerivAt_of_eq; on_goal 1 => (repeat' comp_step))
  all_goals try comp_side
  all_goals try simp (disch := first | assumption | positivity) only [div_mul_eq_div_div, div_half, inv_half]
  all_goals try simp only [mul_zero, zero_mul, add_zero, zero_add, sub_zero, zero_sub, mul_one, one_mul]
  all_goals try push_cast
  all_goals comp_eq

theorem d_fuselage_wetted_area__nose_area (aftbody_len fuselage_avg_diameter
    fuselage_pressurized_width_additional fuselage_wetted_area_scaler fuselage_station_aft
    cabin_height forebody_len nose_area : ℝ) (h0 : 0 < fuselage_avg_diameter) (h1 : 0 <
    cabin_height) (h2 : 0 < fuselage_pressurized_width_additional) :
    HasDerivAt (fun t => out_fuselage_wetted_area aftbody_len fuselage_avg_diameter fuselage_pressurized_width_additional fuselage_wetted_area_scaler fuselage_station_aft cabin_height forebody_len t) (J_fuselage_wetted_area__nose_area fuselage_wetted_area_scaler) nose_area := by
  simp only [out_fuselage_wetted_area, J_fuselage_wetted_area__nose_area, fuselage_wetted_area_2, fuselage_wetted_area, aftbody_surface_area, diag_a_a, diag_a_c, body_width_pass, cabin_surface_area, forebody_surface_area, diag_f_c, diag_f_b, sqrt_eq_rpow]
  (apply hasDerivAt_of_eq; on_goal 1 => (repeat' comp_step))
  all_goals try comp_side
  all_goals try simp (disch := first | assumption | positivity) only [div_mul_eq_div_div, div_half, inv_half]
  all_goals try simp only [mul_zero, zero_mul, add_zero, zero_add, sub_zero, zero_sub, mul_one, one_mul]
  all_goals try push_cast
  all_goals comp_eq

/-- Partial derivatives of `BWBFuselageSize` that are proved correct (the rest is listed in the header). -/
theorem partials_partial (fuselage_pilot_compartment_length cabin_len nose_length aftbody_len
    fuselage_avg_diameter fuselage_pressurized_width_additional fuselage_wetted_area_scaler
    fuselage_station_aft cabin_height forebody_len nose_area : ℝ) (h0 : 0 < fuselage_avg_diameter)
    (h1 : 0 < cabin_height) (h2 : 0 < fuselage_pressurized_width_additional) :
    HasDerivAt (fun t => out_fuselage_length t cabin_len nose_length aftbody_len)
      (J_fuselage_length__fuselage_pilot_compartment_length) fuselage_pilot_compartment_length ∧
    HasDerivAt (fun t => out_fuselage_length fuselage_pilot_compartment_length t nose_length
      aftbody_len) (J_fuselage_length__cabin_len) cabin_len ∧
    HasDerivAt (fun t => out_fuselage_length fuselage_pilot_compartment_length cabin_len t
      aftbody_len) (J_fuselage_length__nose_length) nose_length ∧
    HasDerivAt (fun t => out_fuselage_length fuselage_pilot_compartment_length cabin_len nose_length
      t) (J_fuselage_length__aftbody_len) aftbody_len ∧
    HasDerivAt (fun t => out_tailboom_length t cabin_len nose_length aftbody_len)
      (J_tailboom_length__fuselage_pilot_compartment_length) fuselage_pilot_compartment_length ∧
    HasDerivAt (fun t => out_tailboom_length fuselage_pilot_compartment_length t nose_length
      aftbody_len) (J_tailboom_length__cabin_len) cabin_len ∧
    HasDerivAt (fun t => out_tailboom_length fuselage_pilot_compartment_length cabin_len t
      aftbody_len) (J_tailboom_length__nose_length) nose_length ∧
    HasDerivAt (fun t => out_tailboom_length fuselage_pilot_compartment_length cabin_len nose_length
      t) (J_tailboom_length__aftbody_len) aftbody_len ∧
    HasDerivAt (fun t => out_fuselage_wetted_area t fuselage_avg_diameter
      fuselage_pressurized_width_additional fuselage_wetted_area_scaler fuselage_station_aft
      cabin_height forebody_len nose_area) (J_fuselage_wetted_area__aftbody_len aftbody_len
      fuselage_avg_diameter fuselage_pressurized_width_additional fuselage_wetted_area_scaler
      cabin_height) aftbody_len ∧
    HasDerivAt (fun t => out_fuselage_wetted_area aftbody_len t fuselage_pressurized_width_additional
      fuselage_wetted_area_scaler fuselage_station_aft cabin_height forebody_len nose_area)
      (J_fuselage_wetted_area__fuselage_avg_diameter aftbody_len fuselage_avg_diameter
      fuselage_wetted_area_scaler fuselage_station_aft cabin_height forebody_len)
      fuselage_avg_diameter ∧
    HasDerivAt (fun t => out_fuselage_wetted_area aftbody_len fuselage_avg_diameter
      fuselage_pressurized_width_additional t fuselage_station_aft cabin_height forebody_len
      nose_area) (J_fuselage_wetted_area__fuselage_wetted_area_scaler aftbody_len
      fuselage_avg_diameter fuselage_pressurized_width_additional fuselage_station_aft
      cabin_height forebody_len nose_area) fuselage_wetted_area_scaler ∧
    HasDerivAt (fun t => out_fuselage_wetted_area aftbody_len fuselage_avg_diameter
      fuselage_pressurized_width_additional fuselage_wetted_area_scaler t cabin_height
      forebody_len nose_area) (J_fuselage_wetted_area__fuselage_station_aft fuselage_avg_diameter
      fuselage_wetted_area_scaler) fuselage_station_aft ∧
    HasDerivAt (fun t => out_fuselage_wetted_area aftbody_len fuselage_avg_diameter
      fuselage_pressurized_width_additional fuselage_wetted_area_scaler fuselage_station_aft t
      forebody_len nose_area) (J_fuselage_wetted_area__cabin_height aftbody_len
      fuselage_avg_diameter fuselage_pressurized_width_additional fuselage_wetted_area_scaler
      cabin_height forebody_len) cabin_height ∧
    HasDerivAt (fun t => out_fuselage_wetted_area aftbody_len fuselage_avg_diameter
      fuselage_pressurized_width_additional fuselage_wetted_area_scaler fuselage_station_aft
      cabin_height t nose_area) (J_fuselage_wetted_area__forebody_len fuselage_avg_diameter
      fuselage_wetted_area_scaler cabin_height forebody_len) forebody_len ∧
    HasDerivAt (fun t => out_fuselage_wetted_area aftbody_len fuselage_avg_diameter
      fuselage_pressurized_width_additional fuselage_wetted_area_scaler fuselage_station_aft
      cabin_height forebody_len t) (J_fuselage_wetted_area__nose_area fuselage_wetted_area_scaler)
      nose_area :=
  ⟨d_fuselage_length__fuselage_pilot_compartment_length _ _ _ _, d_fuselage_length__cabin_len _ _
    _ _, d_fuselage_length__nose_length _ _ _ _, d_fuselage_length__aftbody_len _ _ _ _,
    d_tailboom_length__fuselage_pilot_compartment_length _ _ _ _, d_tailboom_length__cabin_len _ _
    _ _, d_tailboom_length__nose_length _ _ _ _, d_tailboom_length__aftbody_len _ _ _ _,
    d_fuselage_wetted_area__aftbody_len _ _ _ _ _ _ _ _ h0 h1 h2,
    d_fuselage_wetted_area__fuselage_avg_diameter _ _ _ _ _ _ _ _ h0 h1 h2,
    d_fuselage_wetted_area__fuselage_wetted_area_scaler _ _ _ _ _ _ _ _ h0 h1 h2,
    d_fuselage_wetted_area__fuselage_station_aft _ _ _ _ _ _ _ _ h0 h1 h2,
    d_fuselage_wetted_area__cabin_height _ _ _ _ _ _ _ _ h0 h1 h2,
    d_fuselage_wetted_area__forebody_len _ _ _ _ _ _ _ _ h0 h1 h2,
    d_fuselage_wetted_area__nose_area _ _ _ _ _ _ _ _ h0 h1 h2⟩

example : ∃ fuselage_pilot_compartment_length cabin_len nose_length aftbody_len
      fuselage_avg_diameter fuselage_pressurized_width_additional fuselage_wetted_area_scaler
      fuselage_station_aft cabin_height forebody_len nose_area : ℝ,
      0 < fuselage_avg_diameter ∧
      0 < cabin_height ∧
      0 < fuselage_pressurized_width_additional :=
  ⟨0, 0, 0, 0, 1, 1, 0, 0, 1, 0, 0, by comp_example, by comp_example, by comp_example⟩

end Verif.Comp.GeometryGaspBasedFuselage.BWBFuselageSize

namespace Verif.Comp.GeometryGaspBasedFuselage.FuselageParameters
open Real

/-- aviary/subsystems/geometry/gasp_based/fuselage.py:68 -/
noncomputable def cabin_width (crewpayload_design_num_seats_abreast_economy fuselage_num_aisles fuselage_seat_width_economy fuselage_aisle_width : ℝ) : ℝ :=
  ((crewpayload_design_num_seats_abreast_economy * fuselage_seat_width_economy) +
    (fuselage_num_aisles * fuselage_aisle_width)) + 12

/-- aviary/subsystems/geometry/gasp_based/fuselage.py:75 -/
noncomputable def cabin_len_a (crewpayload_design_num_passengers crewpayload_design_seat_pitch_economy : ℝ) : ℝ :=
  (crewpayload_design_num_passengers * crewpayload_design_seat_pitch_economy) / 12

/-- aviary/subsystems/geometry/gasp_based/fuselage.py:76 -/
noncomputable def nose_height_a (crewpayload_design_num_seats_abreast_economy fuselage_num_aisles fuselage_seat_width_economy fuselage_aisle_width : ℝ) : ℝ :=
  (cabin_width crewpayload_design_num_seats_abreast_economy fuselage_num_aisles
    fuselage_seat_width_economy fuselage_aisle_width) / 12

/-- aviary/subsystems/geometry/gasp_based/fuselage.py:77 -/
noncomputable def cabin_height_a (crewpayload_design_num_seats_abreast_economy fuselage_num_aisles fuselage_seat_width_economy fuselage_aisle_width fuselage_delta_diameter : ℝ) : ℝ :=
  (nose_height_a crewpayload_design_num_seats_abreast_economy fuselage_num_aisles
    fuselage_seat_width_economy fuselage_aisle_width) + fuselage_delta_diameter

/-- aviary/subsystems/geometry/gasp_based/fuselage.py:80 -/
noncomputable def cabin_len_b (crewpayload_design_num_seats_abreast_economy crewpayload_design_num_passengers crewpayload_design_seat_pitch_economy : ℝ) : ℝ :=
  ((crewpayload_design_num_passengers - 1) * crewpayload_design_seat_pitch_economy) /
    (crewpayload_design_num_seats_abreast_economy * 12)

/-- aviary/subsystems/geometry/gasp_based/fuselage.py:81 -/
noncomputable def cabin_height_b (crewpayload_design_num_seats_abreast_economy fuselage_num_aisles fuselage_seat_width_economy fuselage_aisle_width : ℝ) : ℝ :=
  (cabin_width crewpayload_design_num_seats_abreast_economy fuselage_num_aisles
    fuselage_seat_width_economy fuselage_aisle_width) / 12

/-- aviary/subsystems/geometry/gasp_based/fuselage.py:82 -/
noncomputable def nose_height_b (crewpayload_design_num_seats_abreast_economy fuselage_num_aisles fuselage_seat_width_economy fuselage_aisle_width fuselage_delta_diameter : ℝ) : ℝ :=
  (cabin_height_b crewpayload_design_num_seats_abreast_economy fuselage_num_aisles
    fuselage_seat_width_economy fuselage_aisle_width) - fuselage_delta_diameter

/-- aviary/subsystems/geometry/gasp_based/fuselage.py:89 -/
noncomputable def sig1 (crewpayload_design_num_seats_abreast_economy : ℝ) : ℝ :=
  sigX crewpayload_design_num_seats_abreast_economy (3 / 2) (-(1 / 100))

/-- aviary/subsystems/geometry/gasp_based/fuselage.py:90 -/
noncomputable def sig2 (crewpayload_design_num_seats_abreast_economy : ℝ) : ℝ :=
  sigX crewpayload_design_num_seats_abreast_economy (3 / 2) (1 / 100)

/-- Output `fuselage_avg_diameter` of `FuselageParameters.compute`, aviary/subsystems/geometry/gasp_based/fuselage.py:84 -/
noncomputable def out_fuselage_avg_diameter (crewpayload_design_num_seats_abreast_economy fuselage_num_aisles fuselage_seat_width_economy fuselage_aisle_width : ℝ) : ℝ :=
  cabin_width crewpayload_design_num_seats_abreast_economy fuselage_num_aisles
    fuselage_seat_width_economy fuselage_aisle_width

/-- Output `cabin_height` of `FuselageParameters.compute`, aviary/subsystems/geometry/gasp_based/fuselage.py:91 -/
noncomputable def out_cabin_height (crewpayload_design_num_seats_abreast_economy fuselage_num_aisles fuselage_seat_width_economy fuselage_aisle_width fuselage_delta_diameter : ℝ) : ℝ :=
  ((cabin_height_a crewpayload_design_num_seats_abreast_economy fuselage_num_aisles
    fuselage_seat_width_economy fuselage_aisle_width fuselage_delta_diameter) * (sig1
    crewpayload_design_num_seats_abreast_economy)) + ((cabin_height_b
    crewpayload_design_num_seats_abreast_economy fuselage_num_aisles fuselage_seat_width_economy
    fuselage_aisle_width) * (sig2 crewpayload_design_num_seats_abreast_economy))

/-- Output `cabin_len` of `FuselageParameters.compute`, aviary/subsystems/geometry/gasp_based/fuselage.py:92 -/
noncomputable def out_cabin_len (crewpayload_design_num_seats_abreast_economy crewpayload_design_num_passengers crewpayload_design_seat_pitch_economy : ℝ) : ℝ :=
  ((cabin_len_a crewpayload_design_num_passengers crewpayload_design_seat_pitch_economy) * (sig1
    crewpayload_design_num_seats_abreast_economy)) + ((cabin_len_b
    crewpayload_design_num_seats_abreast_economy crewpayload_design_num_passengers
    crewpayload_design_seat_pitch_economy) * (sig2
    crewpayload_design_num_seats_abreast_economy))

/-- Output `nose_height` of `FuselageParameters.compute`, aviary/subsystems/geometry/gasp_based/fuselage.py:93 -/
noncomputable def out_nose_height (crewpayload_design_num_seats_abreast_economy fuselage_num_aisles fuselage_seat_width_economy fuselage_aisle_width fuselage_delta_diameter : ℝ) : ℝ :=
  ((nose_height_a crewpayload_design_num_seats_abreast_economy fuselage_num_aisles
    fuselage_seat_width_economy fuselage_aisle_width) * (sig1
    crewpayload_design_num_seats_abreast_economy)) + ((nose_height_b
    crewpayload_design_num_seats_abreast_economy fuselage_num_aisles fuselage_seat_width_economy
    fuselage_aisle_width fuselage_delta_diameter) * (sig2
    crewpayload_design_num_seats_abreast_economy))

/-- Partial of `fuselage_avg_diameter` with respect to `fuselage_aisle_width` as set by `FuselageParameters`, aviary/subsystems/geometry/gasp_based/fuselage.py:102 -/
noncomputable def J_fuselage_avg_diameter__fuselage_aisle_width (fuselage_num_aisles : ℝ) : ℝ :=
  fuselage_num_aisles

/-- Partial of `fuselage_avg_diameter` with respect to `fuselage_seat_width_economy` as set by `FuselageParameters`, aviary/subsystems/geometry/gasp_based/fuselage.py:103 -/
noncomputable def J_fuselage_avg_diameter__fuselage_seat_width_economy (crewpayload_design_num_seats_abreast_economy : ℝ) : ℝ :=
  crewpayload_design_num_seats_abreast_economy

/-- Partial of `nose_height` with respect to `fuselage_delta_diameter` as set by `FuselageParameters`, aviary/subsystems/geometry/gasp_based/fuselage.py:105 -/
noncomputable def J_nose_height__fuselage_delta_diameter (crewpayload_design_num_seats_abreast_economy : ℝ) : ℝ :=
  -(sig2 crewpayload_design_num_seats_abreast_economy)

/-- Partial of `nose_height` with respect to `fuselage_aisle_width` as set by `FuselageParameters`, aviary/subsystems/geometry/gasp_based/fuselage.py:106 -/
noncomputable def J_nose_height__fuselage_aisle_width (crewpayload_design_num_seats_abreast_economy fuselage_num_aisles : ℝ) : ℝ :=
  ((fuselage_num_aisles / 12) * (sig1 crewpayload_design_num_seats_abreast_economy)) +
    ((fuselage_num_aisles / 12) * (sig2 crewpayload_design_num_seats_abreast_economy))

/-- Partial of `nose_height` with respect to `fuselage_seat_width_economy` as set by `FuselageParameters`, aviary/subsystems/geometry/gasp_based/fuselage.py:109 -/
noncomputable def J_nose_height__fuselage_seat_width_economy (crewpayload_design_num_seats_abreast_economy : ℝ) : ℝ :=
  ((crewpayload_design_num_seats_abreast_economy / 12) * (sig1
    crewpayload_design_num_seats_abreast_economy)) +
    ((crewpayload_design_num_seats_abreast_economy / 12) * (sig2
    crewpayload_design_num_seats_abreast_economy))

/-- Partial of `cabin_height` with respect to `fuselage_delta_diameter` as set by `FuselageParameters`, aviary/subsystems/geometry/gasp_based/fuselage.py:113 -/
noncomputable def J_cabin_height__fuselage_delta_diameter (crewpayload_design_num_seats_abreast_economy : ℝ) : ℝ :=
  sig1 crewpayload_design_num_seats_abreast_economy

/-- Partial of `cabin_height` with respect to `fuselage_aisle_width` as set by `FuselageParameters`, aviary/subsystems/geometry/gasp_based/fuselage.py:114 -/
noncomputable def J_cabin_height__fuselage_aisle_width (crewpayload_design_num_seats_abreast_economy fuselage_num_aisles : ℝ) : ℝ :=
  ((fuselage_num_aisles / 12) * (sig1 crewpayload_design_num_seats_abreast_economy)) +
    ((fuselage_num_aisles / 12) * (sig2 crewpayload_design_num_seats_abreast_economy))

/-- Partial of `cabin_height` with respect to `fuselage_seat_width_economy` as set by `FuselageParameters`, aviary/subsystems/geometry/gasp_based/fuselage.py:117 -/
noncomputable def J_cabin_height__fuselage_seat_width_economy (crewpayload_design_num_seats_abreast_economy : ℝ) : ℝ :=
  ((crewpayload_design_num_seats_abreast_economy / 12) * (sig1
    crewpayload_design_num_seats_abreast_economy)) +
    ((crewpayload_design_num_seats_abreast_economy / 12) * (sig2
    crewpayload_design_num_seats_abreast_economy))

theorem d_fuselage_avg_diameter__fuselage_seat_width_economy
    (crewpayload_design_num_seats_abreast_economy fuselage_num_aisles fuselage_seat_width_economy
    fuselage_aisle_width : ℝ)  :
    HasDerivAt (fun t => out_fuselage_avg_diameter crewpayload_design_num_seats_abreast_economy fuselage_num_aisles t fuselage_aisle_width) (J_fuselage_avg_diameter__fuselage_seat_width_economy crewpayload_design_num_seats_abreast_economy) fuselage_seat_width_economy := by
  simp only [out_fuselage_avg_diameter, J_fuselage_avg_diameter__fuselage_seat_width_economy, cabin_width]
  (apply hasDerivAt_of_eq; on_goal 1 => (repeat' comp_step))
  all_goals try comp_side
  all_goals try simp only [mul_zero, zero_mul, add_zero, zero_add, sub_zero, zero_sub, mul_one, one_mul]
  all_goals try push_cast
  all_goals comp_eq

theorem d_fuselage_avg_diameter__fuselage_aisle_width
    (crewpayload_design_num_seats_abreast_economy fuselage_num_aisles fuselage_seat_width_economy
    fuselage_aisle_width : ℝ)  :
    HasDerivAt (fun t => out_fuselage_avg_diameter crewpayload_design_num_seats_abreast_economy fuselage_num_aisles fuselage_seat_width_economy t) (J_fuselage_avg_diameter__fuselage_aisle_width fuselage_num_aisles) fuselage_aisle_width := by
  simp only [out_fuselage_avg_diameter, J_fuselage_avg_diameter__fuselage_aisle_width, cabin_width]
  (apply hasDerivAt_of_eq; on_goal 1 => (repeat' comp_step))
  all_goals try comp_side
  all_goals try simp only [mul_zero, zero_mul, add_zero, zero_add, sub_zero, zero_sub, mul_one, one_mul]
  all_goals try push_cast
  all_goals comp_eq

theorem d_cabin_height__fuselage_seat_width_economy (crewpayload_design_num_seats_abreast_economy
    fuselage_num_aisles fuselage_seat_width_economy fuselage_aisle_width fuselage_delta_diameter :
    ℝ)  :
    HasDerivAt (fun t => out_cabin_height crewpayload_design_num_seats_abreast_economy fuselage_num_aisles t fuselage_aisle_width fuselage_delta_diameter) (J_cabin_height__fuselage_seat_width_economy crewpayload_design_num_seats_abreast_economy) fuselage_seat_width_economy := by
  simp only [out_cabin_height, J_cabin_height__fuselage_seat_width_economy, sig2, cabin_height_b, sig1, cabin_height_a, nose_height_a, cabin_width]
  (apply hasDerivAt_of_eq; on_goal 1 => (repeat' comp_step))
  all_goals try comp_side
  all_goals try simp only [mul_zero, zero_mul, add_zero, zero_add, sub_zero, zero_sub, mul_one, one_mul]
  all_goals try push_cast
  all_goals comp_eq

theorem d_cabin_height__fuselage_aisle_width (crewpayload_design_num_seats_abreast_economy
    fuselage_num_aisles fuselage_seat_width_economy fuselage_aisle_width fuselage_delta_diameter :
    ℝ)  :
    HasDerivAt (fun t => out_cabin_height crewpayload_design_num_seats_abreast_economy fuselage_num_aisles fuselage_seat_width_economy t fuselage_delta_diameter) (J_cabin_height__fuselage_aisle_width crewpayload_design_num_seats_abreast_economy fuselage_num_aisles) fuselage_aisle_width := by
  simp only [out_cabin_height, J_cabin_height__fuselage_aisle_width, sig2, cabin_height_b, sig1, cabin_height_a, nose_height_a, cabin_width]
  (apply hasDerivAt_of_eq; on_goal 1 => (repeat' comp_step))
  all_goals try comp_side
  all_goals try simp only [mul_zero, zero_mul, add_zero, zero_add, sub_zero, zero_sub, mul_one, one_mul]
  all_goals try push_cast
  all_goals comp_eq

theorem d_cabin_height__fuselage_delta_diameter (crewpayload_design_num_seats_abreast_economy
    fuselage_num_aisles fuselage_seat_width_economy fuselage_aisle_width fuselage_delta_diameter :
    ℝ)  :
    HasDerivAt (fun t => out_cabin_height crewpayload_design_num_seats_abreast_economy fuselage_num_aisles fuselage_seat_width_economy fuselage_aisle_width t) (J_cabin_height__fuselage_delta_diameter crewpayload_design_num_seats_abreast_economy) fuselage_delta_diameter := by
  simp only [out_cabin_height, J_cabin_height__fuselage_delta_diameter, sig2, cabin_height_b, sig1, cabin_height_a, nose_height_a, cabin_width]
  (apply hasDerivAt_of_eq; on_goal 1 => (repeat' comp_step))
  all_goals try comp_side
  all_goals try simp only [mul_zero, zero_mul, add_zero, zero_add, sub_zero, zero_sub, mul_one, one_mul]
  all_goals try push_cast
  all_goals comp_eq

theorem d_nose_height__fuselage_seat_width_economy (crewpayload_design_num_seats_abreast_economy
    fuselage_num_aisles fuselage_seat_width_economy fuselage_aisle_width fuselage_delta_diameter :
    ℝ)  :
    HasDerivAt (fun t => out_nose_height crewpayload_design_num_seats_abreast_economy fuselage_num_aisles t fuselage_aisle_width fuselage_delta_diameter) (J_nose_height__fuselage_seat_width_economy crewpayload_design_num_seats_abreast_economy) fuselage_seat_width_economy := by
  simp only [out_nose_height, J_nose_height__fuselage_seat_width_economy, sig2, nose_height_b, cabin_height_b, sig1, nose_height_a, cabin_width]
  (apply hasDerivAt_of_eq; on_goal 1 => (repeat' comp_step))
  all_goals try comp_side
  all_goals try simp only [mul_zero, zero_mul, add_zero, zero_add, sub_zero, zero_sub, mul_one, one_mul]
  all_goals try push_cast
  all_goals comp_eq

theorem d_nose_height__fuselage_aisle_width (crewpayload_design_num_seats_abreast_economy
    fuselage_num_aisles fuselage_seat_width_economy fuselage_aisle_width fuselage_delta_diameter :
    ℝ)  :
    HasDerivAt (fun t => out_nose_height crewpayload_design_num_seats_abreast_economy fuselage_num_aisles fuselage_seat_width_economy t fuselage_delta_diameter) (J_nose_height__fuselage_aisle_width crewpayload_design_num_seats_abreast_economy fuselage_num_aisles) fuselage_aisle_width := by
  simp only [out_nose_height, J_nose_height__fuselage_aisle_width, sig2, nose_height_b, cabin_height_b, sig1, nose_height_a, cabin_width]
  (apply hasDerivAt_of_eq; on_goal 1 => (repeat' comp_step))
  all_goals try comp_side
  all_goals try simp only [mul_zero, zero_mul, add_zero, zero_add, sub_zero, zero_sub, mul_one, one_mul]
  all_goals try push_cast
  all_goals comp_eq

theorem d_nose_height__fuselage_delta_diameter (crewpayload_design_num_seats_abreast_economy
    fuselage_num_aisles fuselage_seat_width_economy fuselage_aisle_width fuselage_delta_diameter :
    ℝ)  :
    HasDerivAt (fun t => out_nose_height crewpayload_design_num_seats_abreast_economy fuselage_num_aisles fuselage_seat_width_economy fuselage_aisle_width t) (J_nose_height__fuselage_delta_diameter crewpayload_design_num_seats_abreast_economy) fuselage_delta_diameter := by
  simp only [out_nose_height, J_nose_height__fuselage_delta_diameter, sig2, nose_height_b, cabin_height_b, sig1, nose_height_a, cabin_width]
  (apply hasDerivAt_of_eq; on_goal 1 => (repeat' comp_step))
  all_goals try comp_side
  all_goals try simp only [mul_zero, zero_mul, add_zero, zero_add, sub_zero, zero_sub, mul_one, one_mul]
  all_goals try push_cast
  all_goals comp_eq

/-- Every partial derivative set by `FuselageParameters` is the derivative of its output. -/
theorem partials (crewpayload_design_num_seats_abreast_economy fuselage_num_aisles
    fuselage_seat_width_economy fuselage_aisle_width fuselage_delta_diameter : ℝ) :
    HasDerivAt (fun t => out_fuselage_avg_diameter crewpayload_design_num_seats_abreast_economy
      fuselage_num_aisles t fuselage_aisle_width)
      (J_fuselage_avg_diameter__fuselage_seat_width_economy
      crewpayload_design_num_seats_abreast_economy) fuselage_seat_width_economy ∧
    HasDerivAt (fun t => out_fuselage_avg_diameter crewpayload_design_num_seats_abreast_economy
      fuselage_num_aisles fuselage_seat_width_economy t)
      (J_fuselage_avg_diameter__fuselage_aisle_width fuselage_num_aisles) fuselage_aisle_width ∧
    HasDerivAt (fun t => out_cabin_height crewpayload_design_num_seats_abreast_economy
      fuselage_num_aisles t fuselage_aisle_width fuselage_delta_diameter)
      (J_cabin_height__fuselage_seat_width_economy crewpayload_design_num_seats_abreast_economy)
      fuselage_seat_width_economy ∧
    HasDerivAt (fun t => out_cabin_height crewpayload_design_num_seats_abreast_economy
      fuselage_num_aisles fuselage_seat_width_economy t fuselage_delta_diameter)
      (J_cabin_height__fuselage_aisle_width crewpayload_design_num_seats_abreast_economy
      fuselage_num_aisles) fuselage_aisle_width ∧
    HasDerivAt (fun t => out_cabin_height crewpayload_design_num_seats_abreast_economy
      fuselage_num_aisles fuselage_seat_width_economy fuselage_aisle_width t)
      (J_cabin_height__fuselage_delta_diameter crewpayload_design_num_seats_abreast_economy)
      fuselage_delta_diameter ∧
    HasDerivAt (fun t => out_nose_height crewpayload_design_num_seats_abreast_economy
      fuselage_num_aisles t fuselage_aisle_width fuselage_delta_diameter)
      (J_nose_height__fuselage_seat_width_economy crewpayload_design_num_seats_abreast_economy)
      fuselage_seat_width_economy ∧
    HasDerivAt (fun t => out_nose_height crewpayload_design_num_seats_abreast_economy
      fuselage_num_aisles fuselage_seat_width_economy t fuselage_delta_diameter)
      (J_nose_height__fuselage_aisle_width crewpayload_design_num_seats_abreast_economy
      fuselage_num_aisles) fuselage_aisle_width ∧
    HasDerivAt (fun t => out_nose_height crewpayload_design_num_seats_abreast_economy
      fuselage_num_aisles fuselage_seat_width_economy fuselage_aisle_width t)
      (J_nose_height__fuselage_delta_diameter crewpayload_design_num_seats_abreast_economy)
      fuselage_delta_diameter :=
  ⟨d_fuselage_avg_diameter__fuselage_seat_width_economy _ _ _ _,
    d_fuselage_avg_diameter__fuselage_aisle_width _ _ _ _,
    d_cabin_height__fuselage_seat_width_economy _ _ _ _ _, d_cabin_height__fuselage_aisle_width _
    _ _ _ _, d_cabin_height__fuselage_delta_diameter _ _ _ _ _,
    d_nose_height__fuselage_seat_width_economy _ _ _ _ _, d_nose_height__fuselage_aisle_width _ _
    _ _ _, d_nose_height__fuselage_delta_diameter _ _ _ _ _⟩

end Verif.Comp.GeometryGaspBasedFuselage.FuselageParameters

namespace Verif.Comp.GeometryGaspBasedFuselage.FuselageSize
open Real

/-- aviary/subsystems/geometry/gasp_based/fuselage.py:194 -/
noncomputable def fus_len (fuselage_nose_fineness fuselage_tail_fineness fuselage_pilot_compartment_length nose_height cabin_len cabin_height : ℝ) : ℝ :=
  (((fuselage_nose_fineness * nose_height) + fuselage_pilot_compartment_length) + cabin_len) +
    (fuselage_tail_fineness * cabin_height)

/-- aviary/subsystems/geometry/gasp_based/fuselage.py:196 -/
noncomputable def fus_sa (fuselage_nose_fineness fuselage_tail_fineness fuselage_pilot_compartment_length nose_height cabin_len cabin_height : ℝ) : ℝ :=
  cabin_height * ((((5 / 2) * ((fuselage_nose_fineness * nose_height) +
    fuselage_pilot_compartment_length)) + ((157 / 50) * cabin_len)) + (((21 / 10) *
    fuselage_tail_fineness) * cabin_height))

/-- aviary/subsystems/geometry/gasp_based/fuselage.py:202 -/
noncomputable def fus_sa_2 (fuselage_nose_fineness fuselage_tail_fineness fuselage_pilot_compartment_length fuselage_wetted_area_scaler nose_height cabin_len cabin_height : ℝ) : ℝ :=
  (fus_sa fuselage_nose_fineness fuselage_tail_fineness fuselage_pilot_compartment_length
    nose_height cabin_len cabin_height) * fuselage_wetted_area_scaler

/-- aviary/subsystems/geometry/gasp_based/fuselage.py:207 -/
noncomputable def cabin_area (fuselage_pilot_compartment_length cabin_len cabin_height : ℝ) : ℝ :=
  cabin_height * (fuselage_pilot_compartment_length + cabin_len)

/-- Output `fuselage_length` of `FuselageSize.compute`, aviary/subsystems/geometry/gasp_based/fuselage.py:209 -/
noncomputable def out_fuselage_length (fuselage_nose_fineness fuselage_tail_fineness fuselage_pilot_compartment_length nose_height cabin_len cabin_height : ℝ) : ℝ :=
  fus_len fuselage_nose_fineness fuselage_tail_fineness fuselage_pilot_compartment_length
    nose_height cabin_len cabin_height

/-- Output `fuselage_wetted_area` of `FuselageSize.compute`, aviary/subsystems/geometry/gasp_based/fuselage.py:210 -/
noncomputable def out_fuselage_wetted_area (fuselage_nose_fineness fuselage_tail_fineness fuselage_pilot_compartment_length fuselage_wetted_area_scaler nose_height cabin_len cabin_height : ℝ) : ℝ :=
  fus_sa_2 fuselage_nose_fineness fuselage_tail_fineness fuselage_pilot_compartment_length
    fuselage_wetted_area_scaler nose_height cabin_len cabin_height

/-- Output `tailboom_length` of `FuselageSize.compute`, aviary/subsystems/geometry/gasp_based/fuselage.py:211 -/
noncomputable def out_tailboom_length (fuselage_nose_fineness fuselage_tail_fineness fuselage_pilot_compartment_length nose_height cabin_len cabin_height : ℝ) : ℝ :=
  fus_len fuselage_nose_fineness fuselage_tail_fineness fuselage_pilot_compartment_length
    nose_height cabin_len cabin_height

/-- Output `fuselage_cabin_area` of `FuselageSize.compute`, aviary/subsystems/geometry/gasp_based/fuselage.py:212 -/
noncomputable def out_fuselage_cabin_area (fuselage_pilot_compartment_length cabin_len cabin_height : ℝ) : ℝ :=
  cabin_area fuselage_pilot_compartment_length cabin_len cabin_height

/-- Partial of `fuselage_length` with respect to `fuselage_nose_fineness` as set by `FuselageSize`, aviary/subsystems/geometry/gasp_based/fuselage.py:223 -/
noncomputable def J_fuselage_length__fuselage_nose_fineness (nose_height : ℝ) : ℝ := nose_height

/-- Partial of `fuselage_length` with respect to `nose_height` as set by `FuselageSize`, aviary/subsystems/geometry/gasp_based/fuselage.py:224 -/
noncomputable def J_fuselage_length__nose_height (fuselage_nose_fineness : ℝ) : ℝ :=
  fuselage_nose_fineness

/-- Partial of `fuselage_length` with respect to `fuselage_pilot_compartment_length` as set by `FuselageSize`, aviary/subsystems/geometry/gasp_based/fuselage.py:225 -/
noncomputable def J_fuselage_length__fuselage_pilot_compartment_length : ℝ := 1

/-- Partial of `fuselage_length` with respect to `cabin_len` as set by `FuselageSize`, aviary/subsystems/geometry/gasp_based/fuselage.py:226 -/
noncomputable def J_fuselage_length__cabin_len : ℝ := 1

/-- Partial of `fuselage_length` with respect to `fuselage_tail_fineness` as set by `FuselageSize`, aviary/subsystems/geometry/gasp_based/fuselage.py:227 -/
noncomputable def J_fuselage_length__fuselage_tail_fineness (cabin_height : ℝ) : ℝ := cabin_height

/-- Partial of `fuselage_length` with respect to `cabin_height` as set by `FuselageSize`, aviary/subsystems/geometry/gasp_based/fuselage.py:228 -/
noncomputable def J_fuselage_length__cabin_height (fuselage_tail_fineness : ℝ) : ℝ :=
  fuselage_tail_fineness

/-- Partial of `fuselage_wetted_area` with respect to `cabin_height` as set by `FuselageSize`, aviary/subsystems/geometry/gasp_based/fuselage.py:230 -/
noncomputable def J_fuselage_wetted_area__cabin_height (fuselage_nose_fineness fuselage_tail_fineness fuselage_pilot_compartment_length fuselage_wetted_area_scaler nose_height cabin_len cabin_height : ℝ) : ℝ :=
  fuselage_wetted_area_scaler * (((((5 / 2) * ((fuselage_nose_fineness * nose_height) +
    fuselage_pilot_compartment_length)) + ((157 / 50) * cabin_len)) + (((21 / 10) *
    fuselage_tail_fineness) * cabin_height)) + ((cabin_height * (21 / 10)) *
    fuselage_tail_fineness))

/-- Partial of `fuselage_wetted_area` with respect to `fuselage_nose_fineness` as set by `FuselageSize`, aviary/subsystems/geometry/gasp_based/fuselage.py:236 -/
noncomputable def J_fuselage_wetted_area__fuselage_nose_fineness (fuselage_wetted_area_scaler nose_height cabin_height : ℝ) : ℝ :=
  ((fuselage_wetted_area_scaler * cabin_height) * (5 / 2)) * nose_height

/-- Partial of `fuselage_wetted_area` with respect to `nose_height` as set by `FuselageSize`, aviary/subsystems/geometry/gasp_based/fuselage.py:239 -/
noncomputable def J_fuselage_wetted_area__nose_height (fuselage_nose_fineness fuselage_wetted_area_scaler cabin_height : ℝ) : ℝ :=
  ((fuselage_wetted_area_scaler * cabin_height) * (5 / 2)) * fuselage_nose_fineness

/-- Partial of `fuselage_wetted_area` with respect to `fuselage_pilot_compartment_length` as set by `FuselageSize`, aviary/subsystems/geometry/gasp_based/fuselage.py:242 -/
noncomputable def J_fuselage_wetted_area__fuselage_pilot_compartment_length (fuselage_wetted_area_scaler cabin_height : ℝ) : ℝ :=
  (fuselage_wetted_area_scaler * cabin_height) * (5 / 2)

/-- Partial of `fuselage_wetted_area` with respect to `cabin_len` as set by `FuselageSize`, aviary/subsystems/geometry/gasp_based/fuselage.py:245 -/
noncomputable def J_fuselage_wetted_area__cabin_len (fuselage_wetted_area_scaler cabin_height : ℝ) : ℝ :=
  (fuselage_wetted_area_scaler * (157 / 50)) * cabin_height

/-- Partial of `fuselage_wetted_area` with respect to `fuselage_tail_fineness` as set by `FuselageSize`, aviary/subsystems/geometry/gasp_based/fuselage.py:246 -/
noncomputable def J_fuselage_wetted_area__fuselage_tail_fineness (fuselage_wetted_area_scaler cabin_height : ℝ) : ℝ :=
  (fuselage_wetted_area_scaler * (21 / 10)) * (cabin_height ^ 2)

/-- Partial of `fuselage_wetted_area` with respect to `fuselage_wetted_area_scaler` as set by `FuselageSize`, aviary/subsystems/geometry/gasp_based/fuselage.py:249 -/
noncomputable def J_fuselage_wetted_area__fuselage_wetted_area_scaler (fuselage_nose_fineness fuselage_tail_fineness fuselage_pilot_compartment_length nose_height cabin_len cabin_height : ℝ) : ℝ :=
  cabin_height * ((((5 / 2) * ((fuselage_nose_fineness * nose_height) +
    fuselage_pilot_compartment_length)) + ((157 / 50) * cabin_len)) + (((21 / 10) *
    fuselage_tail_fineness) * cabin_height))

/-- Partial of `tailboom_length` with respect to `fuselage_nose_fineness` as set by `FuselageSize`, aviary/subsystems/geometry/gasp_based/fuselage.py:255 -/
noncomputable def J_tailboom_length__fuselage_nose_fineness (nose_height : ℝ) : ℝ := nose_height

/-- Partial of `tailboom_length` with respect to `nose_height` as set by `FuselageSize`, aviary/subsystems/geometry/gasp_based/fuselage.py:256 -/
noncomputable def J_tailboom_length__nose_height (fuselage_nose_fineness : ℝ) : ℝ :=
  fuselage_nose_fineness

/-- Partial of `tailboom_length` with respect to `fuselage_pilot_compartment_length` as set by `FuselageSize`, aviary/subsystems/geometry/gasp_based/fuselage.py:257 -/
noncomputable def J_tailboom_length__fuselage_pilot_compartment_length : ℝ := 1

/-- Partial of `tailboom_length` with respect to `cabin_len` as set by `FuselageSize`, aviary/subsystems/geometry/gasp_based/fuselage.py:258 -/
noncomputable def J_tailboom_length__cabin_len : ℝ := 1

/-- Partial of `tailboom_length` with respect to `fuselage_tail_fineness` as set by `FuselageSize`, aviary/subsystems/geometry/gasp_based/fuselage.py:259 -/
noncomputable def J_tailboom_length__fuselage_tail_fineness (cabin_height : ℝ) : ℝ := cabin_height

/-- Partial of `tailboom_length` with respect to `cabin_height` as set by `FuselageSize`, aviary/subsystems/geometry/gasp_based/fuselage.py:260 -/
noncomputable def J_tailboom_length__cabin_height (fuselage_tail_fineness : ℝ) : ℝ :=
  fuselage_tail_fineness

/-- Partial of `fuselage_cabin_area` with respect to `cabin_len` as set by `FuselageSize`, aviary/subsystems/geometry/gasp_based/fuselage.py:262 -/
noncomputable def J_fuselage_cabin_area__cabin_len (cabin_height : ℝ) : ℝ := cabin_height

/-- Partial of `fuselage_cabin_area` with respect to `cabin_height` as set by `FuselageSize`, aviary/subsystems/geometry/gasp_based/fuselage.py:263 -/
noncomputable def J_fuselage_cabin_area__cabin_height (fuselage_pilot_compartment_length cabin_len : ℝ) : ℝ :=
  cabin_len + fuselage_pilot_compartment_length

/-- Partial of `fuselage_cabin_area` with respect to `fuselage_pilot_compartment_length` as set by `FuselageSize`, aviary/subsystems/geometry/gasp_based/fuselage.py:264 -/
noncomputable def J_fuselage_cabin_area__fuselage_pilot_compartment_length (cabin_height : ℝ) : ℝ :=
  cabin_height

theorem d_fuselage_length__fuselage_nose_fineness (fuselage_nose_fineness fuselage_tail_fineness
    fuselage_pilot_compartment_length nose_height cabin_len cabin_height : ℝ)  :
    HasDerivAt (fun t => out_fuselage_length t fuselage_tail_fineness fuselage_pilot_compartment_length nose_height cabin_len cabin_height) (J_fuselage_length__fuselage_nose_fineness nose_height) fuselage_nose_fineness := by
  simp only [out_fuselage_length, J_fuselage_length__fuselage_nose_fineness, fus_len]
  (apply hasDerivAt_of_eq; on_goal 1 => (repeat' comp_step))
  all_goals try comp_side
  all_goals try simp only [mul_zero, zero_mul, add_zero, zero_add, sub_zero, zero_sub, mul_one, one_mul]
  all_goals try push_cast
  all_goals comp_eq

theorem d_fuselage_length__fuselage_tail_fineness (fuselage_nose_fineness fuselage_tail_fineness
    fuselage_pilot_compartment_length nose_height cabin_len cabin_height : ℝ)  :
    HasDerivAt (fun t => out_fuselage_length fuselage_nose_fineness t fuselage_pilot_compartment_length nose_height cabin_len cabin_height) (J_fuselage_length__fuselage_tail_fineness cabin_height) fuselage_tail_fineness := by
  simp only [out_fuselage_length, J_fuselage_length__fuselage_tail_fineness, fus_len]
  (apply hasDerivAt_of_eq; on_goal 1 => (repeat' comp_step))
  all_goals try comp_side
  all_goals try simp only [mul_zero, zero_mul, add_zero, zero_add, sub_zero, zero_sub, mul_one, one_mul]
  all_goals try push_cast
  all_goals comp_eq

theorem d_fuselage_length__fuselage_pilot_compartment_length (fuselage_nose_fineness
    fuselage_tail_fineness fuselage_pilot_compartment_length nose_height cabin_len cabin_height :
    ℝ)  :
    HasDerivAt (fun t => out_fuselage_length fuselage_nose_fineness fuselage_tail_fineness t nose_height cabin_len cabin_height) (J_fuselage_length__fuselage_pilot_compartment_length) fuselage_pilot_compartment_length := by
  simp only [out_fuselage_length, J_fuselage_length__fuselage_pilot_compartment_length, fus_len]
  (apply hasDerivAt_of_eq; on_goal 1 => (repeat' comp_step))
  all_goals try comp_side
  all_goals try simp only [mul_zero, zero_mul, add_zero, zero_add, sub_zero, zero_sub, mul_one, one_mul]
  all_goals try push_cast
  all_goals comp_eq

theorem d_fuselage_length__nose_height (fuselage_nose_fineness fuselage_tail_fineness
    fuselage_pilot_compartment_length nose_height cabin_len cabin_height : ℝ)  :
    HasDerivAt (fun t => out_fuselage_length fuselage_nose_fineness fuselage_tail_fineness fuselage_pilot_compartment_length t cabin_len cabin_height) (J_fuselage_length__nose_height fuselage_nose_fineness) nose_height := by
  simp only [out_fuselage_length, J_fuselage_length__nose_height, fus_len]
  (apply hasDerivAt_of_eq; on_goal 1 => (repeat' comp_step))
  all_goals try comp_side
  all_goals try simp only [mul_zero, zero_mul, add_zero, zero_add, sub_zero, zero_sub, mul_one, one_mul]
  all_goals try push_cast
  all_goals comp_eq

theorem d_fuselage_length__cabin_len (fuselage_nose_fineness fuselage_tail_fineness
    fuselage_pilot_compartment_length nose_height cabin_len cabin_height : ℝ)  :
    HasDerivAt (fun t => out_fuselage_length fuselage_nose_fineness fuselage_tail_fineness fuselage_pilot_compartment_length nose_height t cabin_height) (J_fuselage_length__cabin_len) cabin_len := by
  simp only [out_fuselage_length, J_fuselage_length__cabin_len, fus_len]
  (apply hasDerivAt_of_eq; on_goal 1 => (repeat' comp_step))
  all_goals try comp_side
  all_goals try simp only [mul_zero, zero_mul, add_zero, zero_add, sub_zero, zero_sub, mul_one, one_mul]
  all_goals try push_cast
  all_goals comp_eq

theorem d_fuselage_length__cabin_height (fuselage_nose_fineness fuselage_tail_fineness
    fuselage_pilot_compartment_length nose_height cabin_len cabin_height : ℝ)  :
    HasDerivAt (fun t => out_fuselage_length fuselage_nose_fineness fuselage_tail_fineness fuselage_pilot_compartment_length nose_height cabin_len t) (J_fuselage_length__cabin_height fuselage_tail_fineness) cabin_height := by
  simp only [out_fuselage_length, J_fuselage_length__cabin_height, fus_len]
  (apply hasDerivAt_of_eq; on_goal 1 => (repeat' comp_step))
  all_goals try comp_side
  all_goals try simp only [mul_zero, zero_mul, add_zero, zero_add, sub_zero, zero_sub, mul_one, one_mul]
  all_goals try push_cast
  all_goals comp_eq

theorem d_fuselage_wetted_area__fuselage_nose_fineness (fuselage_nose_fineness
    fuselage_tail_fineness fuselage_pilot_compartment_length fuselage_wetted_area_scaler
    nose_height cabin_len cabin_height : ℝ)  :
    HasDerivAt (fun t => out_fuselage_wetted_area t fuselage_tail_fineness fuselage_pilot_compartment_length fuselage_wetted_area_scaler nose_height cabin_len cabin_height) (J_fuselage_wetted_area__fuselage_nose_fineness fuselage_wetted_area_scaler nose_height cabin_height) fuselage_nose_fineness := by
  simp only [out_fuselage_wetted_area, J_fuselage_wetted_area__fuselage_nose_fineness, fus_sa_2, fus_sa]
  (apply hasDerivAt_of_eq; on_goal 1 => (repeat' comp_step))
  all_goals try comp_side
  all_goals try simp only [mul_zero, zero_mul, add_zero, zero_add, sub_zero, zero_sub, mul_one, one_mul]
  all_goals try push_cast
  all_goals comp_eq

theorem d_fuselage_wetted_area__fuselage_tail_fineness (fuselage_nose_fineness
    fuselage_tail_fineness fuselage_pilot_compartment_length fuselage_wetted_area_scaler
    nose_height cabin_len cabin_height : ℝ)  :
    HasDerivAt (fun t => out_fuselage_wetted_area fuselage_nose_fineness t fuselage_pilot_compartment_length fuselage_wetted_area_scaler nose_height cabin_len cabin_height) (J_fuselage_wetted_area__fuselage_tail_fineness fuselage_wetted_area_scaler cabin_height) fuselage_tail_fineness := by
  simp only [out_fuselage_wetted_area, J_fuselage_wetted_area__fuselage_tail_fineness, fus_sa_2, fus_sa]
  (apply hasDerivAt_of_eq; on_goal 1 => (repeat' comp_step))
  all_goals try comp_side
  all_goals try simp only [mul_zero, zero_mul, add_zero, zero_add, sub_zero, zero_sub, mul_one, one_mul]
  all_goals try push_cast
  all_goals comp_eq

theorem d_fuselage_wetted_area__fuselage_pilot_compartment_length (fuselage_nose_fineness
    fuselage_tail_fineness fuselage_pilot_compartment_length fuselage_wetted_area_scaler
    nose_height cabin_len cabin_height : ℝ)  :
    HasDerivAt (fun t => out_fuselage_wetted_area fuselage_nose_fineness fuselage_tail_fineness t fuselage_wetted_area_scaler nose_height cabin_len cabin_height) (J_fuselage_wetted_area__fuselage_pilot_compartment_length fuselage_wetted_area_scaler cabin_height) fuselage_pilot_compartment_length := by
  simp only [out_fuselage_wetted_area, J_fuselage_wetted_area__fuselage_pilot_compartment_length, fus_sa_2, fus_sa]
  (apply hasDerivAt_of_eq; on_goal 1 => (repeat' comp_step))
  all_goals try comp_side
  all_goals try simp only [mul_zero, zero_mul, add_zero, zero_add, sub_zero, zero_sub, mul_one, one_mul]
  all_goals try push_cast
  all_goals comp_eq

theorem d_fuselage_wetted_area__fuselage_wetted_area_scaler (fuselage_nose_fineness
    fuselage_tail_fineness fuselage_pilot_compartment_length fuselage_wetted_area_scaler
    nose_height cabin_len cabin_height : ℝ)  :
    HasDerivAt (fun t => out_fuselage_wetted_area fuselage_nose_fineness fuselage_tail_fineness fuselage_pilot_compartment_length t nose_height cabin_len cabin_height) (J_fuselage_wetted_area__fuselage_wetted_area_scaler fuselage_nose_fineness fuselage_tail_fineness fuselage_pilot_compartment_length nose_height cabin_len cabin_height) fuselage_wetted_area_scaler := by
  simp only [out_fuselage_wetted_area, J_fuselage_wetted_area__fuselage_wetted_area_scaler, fus_sa_2, fus_sa]
  (apply hasDerivAt_of_eq; on_goal 1 => (repeat' comp_step))
  all_goals try comp_side
  all_goals try simp only [mul_zero, zero_mul, add_zero, zero_add, sub_zero, zero_sub, mul_one, one_mul]
  all_goals try push_cast
  all_goals comp_eq

theorem d_fuselage_wetted_area__nose_height (fuselage_nose_fineness fuselage_tail_fineness
    fuselage_pilot_compartment_length fuselage_wetted_area_scaler nose_height cabin_len
    cabin_height : ℝ)  :
    HasDerivAt (fun t => out_fuselage_wetted_area fuselage_nose_fineness fuselage_tail_fineness fuselage_pilot_compartment_length fuselage_wetted_area_scaler t cabin_len cabin_height) (J_fuselage_wetted_area__nose_height fuselage_nose_fineness fuselage_wetted_area_scaler cabin_height) nose_height := by
  simp only [out_fuselage_wetted_area, J_fuselage_wetted_area__nose_height, fus_sa_2, fus_sa]
  (apply hasDerivAt_of_eq; on_goal 1 => (repeat' comp_step))
  all_goals try comp_side
  all_goals try simp only [mul_zero, zero_mul, add_zero, zero_add, sub_zero, zero_sub, mul_one, one_mul]
  all_goals try push_cast
  all_goals comp_eq

theorem d_fuselage_wetted_area__cabin_len (fuselage_nose_fineness fuselage_tail_fineness
    fuselage_pilot_compartment_length fuselage_wetted_area_scaler nose_height cabin_len
    cabin_height : ℝ)  :
    HasDerivAt (fun t => out_fuselage_wetted_area fuselage_nose_fineness fuselage_tail_fineness fuselage_pilot_compartment_length fuselage_wetted_area_scaler nose_height t cabin_height) (J_fuselage_wetted_area__cabin_len fuselage_wetted_area_scaler cabin_height) cabin_len := by
  simp only [out_fuselage_wetted_area, J_fuselage_wetted_area__cabin_len, fus_sa_2, fus_sa]
  (apply hasDerivAt_of_eq; on_goal 1 => (repeat' comp_step))
  all_goals try comp_side
  all_goals try simp only [mul_zero, zero_mul, add_zero, zero_add, sub_zero, zero_sub, mul_one, one_mul]
  all_goals try push_cast
  all_goals comp_eq

theorem d_fuselage_wetted_area__cabin_height (fuselage_nose_fineness fuselage_tail_fineness
    fuselage_pilot_compartment_length fuselage_wetted_area_scaler nose_height cabin_len
    cabin_height : ℝ)  :
    HasDerivAt (fun t => out_fuselage_wetted_area fuselage_nose_fineness fuselage_tail_fineness fuselage_pilot_compartment_length fuselage_wetted_area_scaler nose_height cabin_len t) (J_fuselage_wetted_area__cabin_height fuselage_nose_fineness fuselage_tail_fineness fuselage_pilot_compartment_length fuselage_wetted_area_scaler nose_height cabin_len cabin_height) cabin_height := by
  simp only [out_fuselage_wetted_area, J_fuselage_wetted_area__cabin_height, fus_sa_2, fus_sa]
  (apply hasDerivAt_of_eq; on_goal 1 => (repeat' comp_step))
  all_goals try comp_side
  all_goals try simp only [mul_zero, zero_mul, add_zero, zero_add, sub_zero, zero_sub, mul_one, one_mul]
  all_goals try push_cast
  all_goals comp_eq

theorem d_tailboom_length__fuselage_nose_fineness (fuselage_nose_fineness fuselage_tail_fineness
    fuselage_pilot_compartment_length nose_height cabin_len cabin_height : ℝ)  :
    HasDerivAt (fun t => out_tailboom_length t fuselage_tail_fineness fuselage_pilot_compartment_length nose_height cabin_len cabin_height) (J_tailboom_length__fuselage_nose_fineness nose_height) fuselage_nose_fineness := by
  simp only [out_tailboom_length, J_tailboom_length__fuselage_nose_fineness, fus_len]
  (apply hasDerivAt_of_eq; on_goal 1 => (repeat' comp_step))
  all_goals try comp_side
  all_goals try simp only [mul_zero, zero_mul, add_zero, zero_add, sub_zero, zero_sub, mul_one, one_mul]
  all_goals try push_cast
  all_goals comp_eq

theorem d_tailboom_length__fuselage_tail_fineness (fuselage_nose_fineness fuselage_tail_fineness
    fuselage_pilot_compartment_length nose_height cabin_len cabin_height : ℝ)  :
    HasDerivAt (fun t => out_tailboom_length fuselage_nose_fineness t fuselage_pilot_compartment_length nose_height cabin_len cabin_height) (J_tailboom_length__fuselage_tail_fineness cabin_height) fuselage_tail_fineness := by
  simp only [out_tailboom_length, J_tailboom_length__fuselage_tail_fineness, fus_len]
  (apply hasDerivAt_of_eq; on_goal 1 => (repeat' comp_step))
  all_goals try comp_side
  all_goals try simp only [mul_zero, zero_mul, add_zero, zero_add, sub_zero, zero_sub, mul_one, one_mul]
  all_goals try push_cast
  all_goals comp_eq

theorem d_tailboom_length__fuselage_pilot_compartment_length (fuselage_nose_fineness
    fuselage_tail_fineness fuselage_pilot_compartment_length nose_height cabin_len cabin_height :
    ℝ)  :
    HasDerivAt (fun t => out_tailboom_length fuselage_nose_fineness fuselage_tail_fineness t nose_height cabin_len cabin_height) (J_tailboom_length__fuselage_pilot_compartment_length) fuselage_pilot_compartment_length := by
  simp only [out_tailboom_length, J_tailboom_length__fuselage_pilot_compartment_length, fus_len]
  (apply hasDerivAt_of_eq; on_goal 1 => (repeat' comp_step))
  all_goals try comp_side
  all_goals try simp only [mul_zero, zero_mul, add_zero, zero_add, sub_zero, zero_sub, mul_one, one_mul]
  all_goals try push_cast
  all_goals comp_eq

theorem d_tailboom_length__nose_height (fuselage_nose_fineness fuselage_tail_fineness
    fuselage_pilot_compartment_length nose_height cabin_len cabin_height : ℝ)  :
    HasDerivAt (fun t => out_tailboom_length fuselage_nose_fineness fuselage_tail_fineness fuselage_pilot_compartment_length t cabin_len cabin_height) (J_tailboom_length__nose_height fuselage_nose_fineness) nose_height := by
  simp only [out_tailboom_length, J_tailboom_length__nose_height, fus_len]
  (apply hasDerivAt_of_eq; on_goal 1 => (repeat' comp_step))
  all_goals try comp_side
  all_goals try simp only [mul_zero, zero_mul, add_zero, zero_add, sub_zero, zero_sub, mul_one, one_mul]
  all_goals try push_cast
  all_goals comp_eq

theorem d_tailboom_length__cabin_len (fuselage_nose_fineness fuselage_tail_fineness
    fuselage_pilot_compartment_length nose_height cabin_len cabin_height : ℝ)  :
    HasDerivAt (fun t => out_tailboom_length fuselage_nose_fineness fuselage_tail_fineness fuselage_pilot_compartment_length nose_height t cabin_height) (J_tailboom_length__cabin_len) cabin_len := by
  simp only [out_tailboom_length, J_tailboom_length__cabin_len, fus_len]
  (apply hasDerivAt_of_eq; on_goal 1 => (repeat' comp_step))
  all_goals try comp_side
  all_goals try simp only [mul_zero, zero_mul, add_zero, zero_add, sub_zero, zero_sub, mul_one, one_mul]
  all_goals try push_cast
  all_goals comp_eq

theorem d_tailboom_length__cabin_height (fuselage_nose_fineness fuselage_tail_fineness
    fuselage_pilot_compartment_length nose_height cabin_len cabin_height : ℝ)  :
    HasDerivAt (fun t => out_tailboom_length fuselage_nose_fineness fuselage_tail_fineness fuselage_pilot_compartment_length nose_height cabin_len t) (J_tailboom_length__cabin_height fuselage_tail_fineness) cabin_height := by
  simp only [out_tailboom_length, J_tailboom_length__cabin_height, fus_len]
  (apply hasDerivAt_of_eq; on_goal 1 => (repeat' comp_step))
  all_goals try comp_side
  all_goals try simp only [mul_zero, zero_mul, add_zero, zero_add, sub_zero, zero_sub, mul_one, one_mul]
  all_goals try push_cast
  all_goals comp_eq

theorem d_fuselage_cabin_area__fuselage_pilot_compartment_length
    (fuselage_pilot_compartment_length cabin_len cabin_height : ℝ)  :
    HasDerivAt (fun t => out_fuselage_cabin_area t cabin_len cabin_height) (J_fuselage_cabin_area__fuselage_pilot_compartment_length cabin_height) fuselage_pilot_compartment_length := by
  simp only [out_fuselage_cabin_area, J_fuselage_cabin_area__fuselage_pilot_compartment_length, cabin_area]
  (apply hasDerivAt_of_eq; on_goal 1 => (repeat' comp_step))
  all_goals try comp_side
  all_goals try simp only [mul_zero, zero_mul, add_zero, zero_add, sub_zero, zero_sub, mul_one, one_mul]
  all_goals try push_cast
  all_goals comp_eq

theorem d_fuselage_cabin_area__cabin_len (fuselage_pilot_compartment_length cabin_len cabin_height
    : ℝ)  :
    HasDerivAt (fun t => out_fuselage_cabin_area fuselage_pilot_compartment_length t cabin_height) (J_fuselage_cabin_area__cabin_len cabin_height) cabin_len := by
  simp only [out_fuselage_cabin_area, J_fuselage_cabin_area__cabin_len, cabin_area]
  (apply hasDerivAt_of_eq; on_goal 1 => (repeat' comp_step))
  all_goals try comp_side
  all_goals try simp only [mul_zero, zero_mul, add_zero, zero_add, sub_zero, zero_sub, mul_one, one_mul]
  all_goals try push_cast
  all_goals comp_eq

theorem d_fuselage_cabin_area__cabin_height (fuselage_pilot_compartment_length cabin_len
    cabin_height : ℝ)  :
    HasDerivAt (fun t => out_fuselage_cabin_area fuselage_pilot_compartment_length cabin_len t) (J_fuselage_cabin_area__cabin_height fuselage_pilot_compartment_length cabin_len) cabin_height := by
  simp only [out_fuselage_cabin_area, J_fuselage_cabin_area__cabin_height, cabin_area]
  (apply hasDerivAt_of_eq; on_goal 1 => (repeat' comp_step))
  all_goals try comp_side
  all_goals try simp only [mul_zero, zero_mul, add_zero, zero_add, sub_zero, zero_sub, mul_one, one_mul]
  all_goals try push_cast
  all_goals comp_eq

/-- Every partial derivative set by `FuselageSize` is the derivative of its output. -/
theorem partials (fuselage_nose_fineness fuselage_tail_fineness fuselage_pilot_compartment_length
    fuselage_wetted_area_scaler nose_height cabin_len cabin_height : ℝ) :
    HasDerivAt (fun t => out_fuselage_length t fuselage_tail_fineness
      fuselage_pilot_compartment_length nose_height cabin_len cabin_height)
      (J_fuselage_length__fuselage_nose_fineness nose_height) fuselage_nose_fineness ∧
    HasDerivAt (fun t => out_fuselage_length fuselage_nose_fineness t
      fuselage_pilot_compartment_length nose_height cabin_len cabin_height)
      (J_fuselage_length__fuselage_tail_fineness cabin_height) fuselage_tail_fineness ∧
    HasDerivAt (fun t => out_fuselage_length fuselage_nose_fineness fuselage_tail_fineness t
      nose_height cabin_len cabin_height) (J_fuselage_length__fuselage_pilot_compartment_length)
      fuselage_pilot_compartment_length ∧
    HasDerivAt (fun t => out_fuselage_length fuselage_nose_fineness fuselage_tail_fineness
      fuselage_pilot_compartment_length t cabin_len cabin_height) (J_fuselage_length__nose_height
      fuselage_nose_fineness) nose_height ∧
    HasDerivAt (fun t => out_fuselage_length fuselage_nose_fineness fuselage_tail_fineness
      fuselage_pilot_compartment_length nose_height t cabin_height) (J_fuselage_length__cabin_len)
      cabin_len ∧
    HasDerivAt (fun t => out_fuselage_length fuselage_nose_fineness fuselage_tail_fineness
      fuselage_pilot_compartment_length nose_height cabin_len t) (J_fuselage_length__cabin_height
      fuselage_tail_fineness) cabin_height ∧
    HasDerivAt (fun t => out_fuselage_wetted_area t fuselage_tail_fineness
      fuselage_pilot_compartment_length fuselage_wetted_area_scaler nose_height cabin_len
      cabin_height) (J_fuselage_wetted_area__fuselage_nose_fineness fuselage_wetted_area_scaler
      nose_height cabin_height) fuselage_nose_fineness ∧
    HasDerivAt (fun t => out_fuselage_wetted_area fuselage_nose_fineness t
      fuselage_pilot_compartment_length fuselage_wetted_area_scaler nose_height cabin_len
      cabin_height) (J_fuselage_wetted_area__fuselage_tail_fineness fuselage_wetted_area_scaler
      cabin_height) fuselage_tail_fineness ∧
    HasDerivAt (fun t => out_fuselage_wetted_area fuselage_nose_fineness fuselage_tail_fineness t
      fuselage_wetted_area_scaler nose_height cabin_len cabin_height)
      (J_fuselage_wetted_area__fuselage_pilot_compartment_length fuselage_wetted_area_scaler
      cabin_height) fuselage_pilot_compartment_length ∧
    HasDerivAt (fun t => out_fuselage_wetted_area fuselage_nose_fineness fuselage_tail_fineness
      fuselage_pilot_compartment_length t nose_height cabin_len cabin_height)
      (J_fuselage_wetted_area__fuselage_wetted_area_scaler fuselage_nose_fineness
      fuselage_tail_fineness fuselage_pilot_compartment_length nose_height cabin_len cabin_height)
      fuselage_wetted_area_scaler ∧
    HasDerivAt (fun t => out_fuselage_wetted_area fuselage_nose_fineness fuselage_tail_fineness
      fuselage_pilot_compartment_length fuselage_wetted_area_scaler t cabin_len cabin_height)
      (J_fuselage_wetted_area__nose_height fuselage_nose_fineness fuselage_wetted_area_scaler
      cabin_height) nose_height ∧
    HasDerivAt (fun t => out_fuselage_wetted_area fuselage_nose_fineness fuselage_tail_fineness
      fuselage_pilot_compartment_length fuselage_wetted_area_scaler nose_height t cabin_height)
      (J_fuselage_wetted_area__cabin_len fuselage_wetted_area_scaler cabin_height) cabin_len ∧
    HasDerivAt (fun t => out_fuselage_wetted_area fuselage_nose_fineness fuselage_tail_fineness
      fuselage_pilot_compartment_length fuselage_wetted_area_scaler nose_height cabin_len t)
      (J_fuselage_wetted_area__cabin_height fuselage_nose_fineness fuselage_tail_fineness
      fuselage_pilot_compartment_length fuselage_wetted_area_scaler nose_height cabin_len
      cabin_height) cabin_height ∧
    HasDerivAt (fun t => out_tailboom_length t fuselage_tail_fineness
      fuselage_pilot_compartment_length nose_height cabin_len cabin_height)
      (J_tailboom_length__fuselage_nose_fineness nose_height) fuselage_nose_fineness ∧
    HasDerivAt (fun t => out_tailboom_length fuselage_nose_fineness t
      fuselage_pilot_compartment_length nose_height cabin_len cabin_height)
      (J_tailboom_length__fuselage_tail_fineness cabin_height) fuselage_tail_fineness ∧
    HasDerivAt (fun t => out_tailboom_length fuselage_nose_fineness fuselage_tail_fineness t
      nose_height cabin_len cabin_height) (J_tailboom_length__fuselage_pilot_compartment_length)
      fuselage_pilot_compartment_length ∧
    HasDerivAt (fun t => out_tailboom_length fuselage_nose_fineness fuselage_tail_fineness
      fuselage_pilot_compartment_length t cabin_len cabin_height) (J_tailboom_length__nose_height
      fuselage_nose_fineness) nose_height ∧
    HasDerivAt (fun t => out_tailboom_length fuselage_nose_fineness fuselage_tail_fineness
      fuselage_pilot_compartment_length nose_height t cabin_height) (J_tailboom_length__cabin_len)
      cabin_len ∧
    HasDerivAt (fun t => out_tailboom_length fuselage_nose_fineness fuselage_tail_fineness
      fuselage_pilot_compartment_length nose_height cabin_len t) (J_tailboom_length__cabin_height
      fuselage_tail_fineness) cabin_height ∧
    HasDerivAt (fun t => out_fuselage_cabin_area t cabin_len cabin_height)
      (J_fuselage_cabin_area__fuselage_pilot_compartment_length cabin_height)
      fuselage_pilot_compartment_length ∧
    HasDerivAt (fun t => out_fuselage_cabin_area fuselage_pilot_compartment_length t cabin_height)
      (J_fuselage_cabin_area__cabin_len cabin_height) cabin_len ∧
    HasDerivAt (fun t => out_fuselage_cabin_area fuselage_pilot_compartment_length cabin_len t)
      (J_fuselage_cabin_area__cabin_height fuselage_pilot_compartment_length cabin_len)
      cabin_height :=
  ⟨d_fuselage_length__fuselage_nose_fineness _ _ _ _ _ _,
    d_fuselage_length__fuselage_tail_fineness _ _ _ _ _ _,
    d_fuselage_length__fuselage_pilot_compartment_length _ _ _ _ _ _,
    d_fuselage_length__nose_height _ _ _ _ _ _, d_fuselage_length__cabin_len _ _ _ _ _ _,
    d_fuselage_length__cabin_height _ _ _ _ _ _, d_fuselage_wetted_area__fuselage_nose_fineness _
    _ _ _ _ _ _, d_fuselage_wetted_area__fuselage_tail_fineness _ _ _ _ _ _ _,
    d_fuselage_wetted_area__fuselage_pilot_compartment_length _ _ _ _ _ _ _,
    d_fuselage_wetted_area__fuselage_wetted_area_scaler _ _ _ _ _ _ _,
    d_fuselage_wetted_area__nose_height _ _ _ _ _ _ _, d_fuselage_wetted_area__cabin_len _ _ _ _ _
    _ _, d_fuselage_wetted_area__cabin_height _ _ _ _ _ _ _,
    d_tailboom_length__fuselage_nose_fineness _ _ _ _ _ _,
    d_tailboom_length__fuselage_tail_fineness _ _ _ _ _ _,
    d_tailboom_length__fuselage_pilot_compartment_length _ _ _ _ _ _,
    d_tailboom_length__nose_height _ _ _ _ _ _, d_tailboom_length__cabin_len _ _ _ _ _ _,
    d_tailboom_length__cabin_height _ _ _ _ _ _,
    d_fuselage_cabin_area__fuselage_pilot_compartment_length _ _ _,
    d_fuselage_cabin_area__cabin_len _ _ _, d_fuselage_cabin_area__cabin_height _ _ _⟩

end Verif.Comp.GeometryGaspBasedFuselage.FuselageSize

