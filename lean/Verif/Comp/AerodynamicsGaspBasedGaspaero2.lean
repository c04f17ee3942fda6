import Verif.Lemmas.CompDeriv

/-! # Partial derivatives of the components of `aviary/subsystems/aerodynamics/gasp_based/gaspaero.py`

One node of a vector component is modelled over the real numbers.  Each option that selects a
branch is fixed, one namespace per choice.  `out_x` is the output `x`, `J_x__y` the entry that
`compute_partials` (or `declare_partials` with `val`) assigns, `d_x__y` the proof that the entry is
the derivative.  Inputs an output does not take as argument have no influence on it. -/

set_option linter.all false

namespace Verif.Comp.AerodynamicsGaspBasedGaspaero.BWBLiftCoeffClean_outputalpha
open Real

/-- aviary/subsystems/aerodynamics/gasp_based/gaspaero.py:2316 -/
noncomputable def mod_lift_curve_slope (lift_curve_slope body_lift_curve_slope wing_area wing_exposed_area fuselage_planform_area : ℝ) : ℝ :=
  ((wing_exposed_area / wing_area) * lift_curve_slope) + ((fuselage_planform_area / wing_area) *
    body_lift_curve_slope)

/-- aviary/subsystems/aerodynamics/gasp_based/gaspaero.py:2321 -/
noncomputable def alpha (lift_curve_slope body_lift_curve_slope wing_zero_lift_angle wing_area wing_exposed_area fuselage_planform_area vehicle_lift_coefficient : ℝ) : ℝ :=
  (((vehicle_lift_coefficient / (mod_lift_curve_slope lift_curve_slope body_lift_curve_slope
    wing_area wing_exposed_area fuselage_planform_area)) * 180) / π) + wing_zero_lift_angle

/-- aviary/subsystems/aerodynamics/gasp_based/gaspaero.py:2331 -/
noncomputable def alpha_stall (lift_curve_slope wing_zero_lift_angle design_lift_coefficient_max_flaps_up : ℝ) : ℝ :=
  (((design_lift_coefficient_max_flaps_up / lift_curve_slope) * 180) / π) + wing_zero_lift_angle

/-- aviary/subsystems/aerodynamics/gasp_based/gaspaero.py:2358 -/
noncomputable def dmod_dexp_wing_area (lift_curve_slope wing_area : ℝ) : ℝ :=
  (1 / wing_area) * lift_curve_slope

/-- aviary/subsystems/aerodynamics/gasp_based/gaspaero.py:2359 -/
noncomputable def dmod_dwing_area (lift_curve_slope body_lift_curve_slope wing_area wing_exposed_area fuselage_planform_area : ℝ) : ℝ :=
  (((-wing_exposed_area) / (wing_area ^ 2)) * lift_curve_slope) - ((fuselage_planform_area /
    (wing_area ^ 2)) * body_lift_curve_slope)

/-- aviary/subsystems/aerodynamics/gasp_based/gaspaero.py:2363 -/
noncomputable def dmod_dplanform (body_lift_curve_slope wing_area : ℝ) : ℝ :=
  (1 / wing_area) * body_lift_curve_slope

/-- aviary/subsystems/aerodynamics/gasp_based/gaspaero.py:2364 -/
noncomputable def dmod_dlift_curve_slope (wing_area wing_exposed_area : ℝ) : ℝ :=
  wing_exposed_area / wing_area

/-- aviary/subsystems/aerodynamics/gasp_based/gaspaero.py:2365 -/
noncomputable def dmod_dbody_lift_curve_slope (wing_area fuselage_planform_area : ℝ) : ℝ :=
  fuselage_planform_area / wing_area

/-- Output `mod_lift_curve_slope` of `BWBLiftCoeffClean.compute`, aviary/subsystems/aerodynamics/gasp_based/gaspaero.py:2320 -/
noncomputable def out_mod_lift_curve_slope (lift_curve_slope body_lift_curve_slope wing_area wing_exposed_area fuselage_planform_area : ℝ) : ℝ :=
  mod_lift_curve_slope lift_curve_slope body_lift_curve_slope wing_area wing_exposed_area
    fuselage_planform_area

/-- Output `vehicle_angle_of_attack` of `BWBLiftCoeffClean.compute`, aviary/subsystems/aerodynamics/gasp_based/gaspaero.py:2322 -/
noncomputable def out_vehicle_angle_of_attack (lift_curve_slope body_lift_curve_slope wing_zero_lift_angle wing_area wing_exposed_area fuselage_planform_area vehicle_lift_coefficient : ℝ) : ℝ :=
  alpha lift_curve_slope body_lift_curve_slope wing_zero_lift_angle wing_area wing_exposed_area
    fuselage_planform_area vehicle_lift_coefficient

/-- Output `alpha_stall` of `BWBLiftCoeffClean.compute`, aviary/subsystems/aerodynamics/gasp_based/gaspaero.py:2332 -/
noncomputable def out_alpha_stall (lift_curve_slope wing_zero_lift_angle design_lift_coefficient_max_flaps_up : ℝ) : ℝ :=
  alpha_stall lift_curve_slope wing_zero_lift_angle design_lift_coefficient_max_flaps_up

/-- Output `cl_max` of `BWBLiftCoeffClean.compute`, aviary/subsystems/aerodynamics/gasp_based/gaspaero.py:2339 -/
noncomputable def out_cl_max (design_lift_coefficient_max_flaps_up : ℝ) : ℝ :=
  design_lift_coefficient_max_flaps_up

/-- Partial of `mod_lift_curve_slope` with respect to `wing_exposed_area` as set by `BWBLiftCoeffClean`, aviary/subsystems/aerodynamics/gasp_based/gaspaero.py:2367 -/
noncomputable def J_mod_lift_curve_slope__wing_exposed_area (lift_curve_slope wing_area : ℝ) : ℝ :=
  dmod_dexp_wing_area lift_curve_slope wing_area

/-- Partial of `mod_lift_curve_slope` with respect to `wing_area` as set by `BWBLiftCoeffClean`, aviary/subsystems/aerodynamics/gasp_based/gaspaero.py:2368 -/
noncomputable def J_mod_lift_curve_slope__wing_area (lift_curve_slope body_lift_curve_slope wing_area wing_exposed_area fuselage_planform_area : ℝ) : ℝ :=
  dmod_dwing_area lift_curve_slope body_lift_curve_slope wing_area wing_exposed_area
    fuselage_planform_area

/-- Partial of `mod_lift_curve_slope` with respect to `fuselage_planform_area` as set by `BWBLiftCoeffClean`, aviary/subsystems/aerodynamics/gasp_based/gaspaero.py:2369 -/
noncomputable def J_mod_lift_curve_slope__fuselage_planform_area (body_lift_curve_slope wing_area : ℝ) : ℝ :=
  dmod_dplanform body_lift_curve_slope wing_area

/-- Partial of `mod_lift_curve_slope` with respect to `lift_curve_slope` as set by `BWBLiftCoeffClean`, aviary/subsystems/aerodynamics/gasp_based/gaspaero.py:2370 -/
noncomputable def J_mod_lift_curve_slope__lift_curve_slope (wing_area wing_exposed_area : ℝ) : ℝ :=
  dmod_dlift_curve_slope wing_area wing_exposed_area

/-- Partial of `mod_lift_curve_slope` with respect to `body_lift_curve_slope` as set by `BWBLiftCoeffClean`, aviary/subsystems/aerodynamics/gasp_based/gaspaero.py:2371 -/
noncomputable def J_mod_lift_curve_slope__body_lift_curve_slope (wing_area fuselage_planform_area : ℝ) : ℝ :=
  dmod_dbody_lift_curve_slope wing_area fuselage_planform_area

/-- Partial of `vehicle_angle_of_attack` with respect to `wing_area` as set by `BWBLiftCoeffClean`, aviary/subsystems/aerodynamics/gasp_based/gaspaero.py:2375 -/
noncomputable def J_vehicle_angle_of_attack__wing_area (lift_curve_slope body_lift_curve_slope wing_area wing_exposed_area fuselage_planform_area vehicle_lift_coefficient : ℝ) : ℝ :=
  ((((-180) / π) * vehicle_lift_coefficient) / ((mod_lift_curve_slope lift_curve_slope
    body_lift_curve_slope wing_area wing_exposed_area fuselage_planform_area) ^ 2)) *
    (dmod_dwing_area lift_curve_slope body_lift_curve_slope wing_area wing_exposed_area
    fuselage_planform_area)

/-- Partial of `vehicle_angle_of_attack` with respect to `wing_exposed_area` as set by `BWBLiftCoeffClean`, aviary/subsystems/aerodynamics/gasp_based/gaspaero.py:2378 -/
noncomputable def J_vehicle_angle_of_attack__wing_exposed_area (lift_curve_slope body_lift_curve_slope wing_area wing_exposed_area fuselage_planform_area vehicle_lift_coefficient : ℝ) : ℝ :=
  ((((-180) / π) * vehicle_lift_coefficient) / ((mod_lift_curve_slope lift_curve_slope
    body_lift_curve_slope wing_area wing_exposed_area fuselage_planform_area) ^ 2)) *
    (dmod_dexp_wing_area lift_curve_slope wing_area)

/-- Partial of `vehicle_angle_of_attack` with respect to `fuselage_planform_area` as set by `BWBLiftCoeffClean`, aviary/subsystems/aerodynamics/gasp_based/gaspaero.py:2381 -/
noncomputable def J_vehicle_angle_of_attack__fuselage_planform_area (lift_curve_slope body_lift_curve_slope wing_area wing_exposed_area fuselage_planform_area vehicle_lift_coefficient : ℝ) : ℝ :=
  ((((-180) / π) * vehicle_lift_coefficient) / ((mod_lift_curve_slope lift_curve_slope
    body_lift_curve_slope wing_area wing_exposed_area fuselage_planform_area) ^ 2)) *
    (dmod_dplanform body_lift_curve_slope wing_area)

/-- Partial of `vehicle_angle_of_attack` with respect to `lift_curve_slope` as set by `BWBLiftCoeffClean`, aviary/subsystems/aerodynamics/gasp_based/gaspaero.py:2384 -/
noncomputable def J_vehicle_angle_of_attack__lift_curve_slope (lift_curve_slope body_lift_curve_slope wing_area wing_exposed_area fuselage_planform_area vehicle_lift_coefficient : ℝ) : ℝ :=
  ((((-180) / π) * vehicle_lift_coefficient) / ((mod_lift_curve_slope lift_curve_slope
    body_lift_curve_slope wing_area wing_exposed_area fuselage_planform_area) ^ 2)) *
    (dmod_dlift_curve_slope wing_area wing_exposed_area)

/-- Partial of `vehicle_angle_of_attack` with respect to `body_lift_curve_slope` as set by `BWBLiftCoeffClean`, aviary/subsystems/aerodynamics/gasp_based/gaspaero.py:2387 -/
noncomputable def J_vehicle_angle_of_attack__body_lift_curve_slope (lift_curve_slope body_lift_curve_slope wing_area wing_exposed_area fuselage_planform_area vehicle_lift_coefficient : ℝ) : ℝ :=
  ((((-180) / π) * vehicle_lift_coefficient) / ((mod_lift_curve_slope lift_curve_slope
    body_lift_curve_slope wing_area wing_exposed_area fuselage_planform_area) ^ 2)) *
    (dmod_dbody_lift_curve_slope wing_area fuselage_planform_area)

/-- Partial of `vehicle_angle_of_attack` with respect to `vehicle_lift_coefficient` as set by `BWBLiftCoeffClean`, aviary/subsystems/aerodynamics/gasp_based/gaspaero.py:2391 -/
noncomputable def J_vehicle_angle_of_attack__vehicle_lift_coefficient (lift_curve_slope body_lift_curve_slope wing_area wing_exposed_area fuselage_planform_area : ℝ) : ℝ :=
  (180 / π) / (mod_lift_curve_slope lift_curve_slope body_lift_curve_slope wing_area
    wing_exposed_area fuselage_planform_area)

/-- Partial of `vehicle_angle_of_attack` with respect to `wing_zero_lift_angle` as set by `BWBLiftCoeffClean`, aviary/subsystems/aerodynamics/gasp_based/gaspaero.py:2394 -/
noncomputable def J_vehicle_angle_of_attack__wing_zero_lift_angle : ℝ := 1

/-- Partial of `alpha_stall` with respect to `design_lift_coefficient_max_flaps_up` as set by `BWBLiftCoeffClean`, aviary/subsystems/aerodynamics/gasp_based/gaspaero.py:2426 -/
noncomputable def J_alpha_stall__design_lift_coefficient_max_flaps_up (lift_curve_slope : ℝ) : ℝ :=
  (180 / π) / lift_curve_slope

/-- Partial of `alpha_stall` with respect to `lift_curve_slope` as set by `BWBLiftCoeffClean`, aviary/subsystems/aerodynamics/gasp_based/gaspaero.py:2429 -/
noncomputable def J_alpha_stall__lift_curve_slope (lift_curve_slope design_lift_coefficient_max_flaps_up : ℝ) : ℝ :=
  (((-180) / π) * design_lift_coefficient_max_flaps_up) / (lift_curve_slope ^ 2)

/-- Partial of `alpha_stall` with respect to `wing_zero_lift_angle` as set by `BWBLiftCoeffClean`, aviary/subsystems/aerodynamics/gasp_based/gaspaero.py:2430 -/
noncomputable def J_alpha_stall__wing_zero_lift_angle : ℝ := 1

/-- Partial of `cl_max` with respect to `design_lift_coefficient_max_flaps_up` as set by `BWBLiftCoeffClean`, aviary/subsystems/aerodynamics/gasp_based/gaspaero.py:2431 -/
noncomputable def J_cl_max__design_lift_coefficient_max_flaps_up : ℝ := 1

theorem d_mod_lift_curve_slope__lift_curve_slope (lift_curve_slope body_lift_curve_slope wing_area
    wing_exposed_area fuselage_planform_area : ℝ) (h0 : 0 < wing_area) :
    HasDerivAt (fun t => out_mod_lift_curve_slope t body_lift_curve_slope wing_area wing_exposed_area fuselage_planform_area) (J_mod_lift_curve_slope__lift_curve_slope wing_area wing_exposed_area) lift_curve_slope := by
  simp only [out_mod_lift_curve_slope, J_mod_lift_curve_slope__lift_curve_slope, dmod_dlift_curve_slope, mod_lift_curve_slope]
  (apply hasDerivAt_of_eq; on_goal 1 => (repeat' comp_step))
  all_goals try comp_side
  all_goals try simp only [mul_zero, zero_mul, add_zero, zero_add, sub_zero, zero_sub, mul_one, one_mul]
  all_goals try push_cast
  all_goals comp_eq

theorem d_mod_lift_curve_slope__body_lift_curve_slope (lift_curve_slope body_lift_curve_slope
    wing_area wing_exposed_area fuselage_planform_area : ℝ) (h0 : 0 < wing_area) :
    HasDerivAt (fun t => out_mod_lift_curve_slope lift_curve_slope t wing_area wing_exposed_area fuselage_planform_area) (J_mod_lift_curve_slope__body_lift_curve_slope wing_area fuselage_planform_area) body_lift_curve_slope := by
  simp only [out_mod_lift_curve_slope, J_mod_lift_curve_slope__body_lift_curve_slope, dmod_dbody_lift_curve_slope, mod_lift_curve_slope]
  (apply hasDerivAt_of_eq; on_goal 1 => (repeat' comp_step))
  all_goals try comp_side
  all_goals try simp only [mul_zero, zero_mul, add_zero, zero_add, sub_zero, zero_sub, mul_one, one_mul]
  all_goals try push_cast
  all_goals comp_eq

theorem d_mod_lift_curve_slope__wing_area (lift_curve_slope body_lift_curve_slope wing_area
    wing_exposed_area fuselage_planform_area : ℝ) (h0 : 0 < wing_area) :
    HasDerivAt (fun t => out_mod_lift_curve_slope lift_curve_slope body_lift_curve_slope t wing_exposed_area fuselage_planform_area) (J_mod_lift_curve_slope__wing_area lift_curve_slope body_lift_curve_slope wing_area wing_exposed_area fuselage_planform_area) wing_area := by
  simp only [out_mod_lift_curve_slope, J_mod_lift_curve_slope__wing_area, dmod_dwing_area, mod_lift_curve_slope]
  (apply hasDerivAt_of_eq; on_goal 1 => (repeat' comp_step))
  all_goals try comp_side
  all_goals try simp only [mul_zero, zero_mul, add_zero, zero_add, sub_zero, zero_sub, mul_one, one_mul]
  all_goals try push_cast
  all_goals comp_eq

theorem d_mod_lift_curve_slope__wing_exposed_area (lift_curve_slope body_lift_curve_slope
    wing_area wing_exposed_area fuselage_planform_area : ℝ) (h0 : 0 < wing_area) :
    HasDerivAt (fun t => out_mod_lift_curve_slope lift_curve_slope body_lift_curve_slope wing_area t fuselage_planform_area) (J_mod_lift_curve_slope__wing_exposed_area lift_curve_slope wing_area) wing_exposed_area := by
  simp only [out_mod_lift_curve_slope, J_mod_lift_curve_slope__wing_exposed_area, dmod_dexp_wing_area, mod_lift_curve_slope]
  (apply hasDerivAt_of_eq; on_goal 1 => (repeat' comp_step))
  all_goals try comp_side
  all_goals try simp only [mul_zero, zero_mul, add_zero, zero_add, sub_zero, zero_sub, mul_one, one_mul]
  all_goals try push_cast
  all_goals comp_eq

theorem d_mod_lift_curve_slope__fuselage_planform_area (lift_curve_slope body_lift_curve_slope
    wing_area wing_exposed_area fuselage_planform_area : ℝ) (h0 : 0 < wing_area) :
    HasDerivAt (fun t => out_mod_lift_curve_slope lift_curve_slope body_lift_curve_slope wing_area wing_exposed_area t) (J_mod_lift_curve_slope__fuselage_planform_area body_lift_curve_slope wing_area) fuselage_planform_area := by
  simp only [out_mod_lift_curve_slope, J_mod_lift_curve_slope__fuselage_planform_area, dmod_dplanform, mod_lift_curve_slope]
  (apply hasDerivAt_of_eq; on_goal 1 => (repeat' comp_step))
  all_goals try comp_side
  all_goals try simp only [mul_zero, zero_mul, add_zero, zero_add, sub_zero, zero_sub, mul_one, one_mul]
  all_goals try push_cast
  all_goals comp_eq

theorem d_vehicle_angle_of_attack__lift_curve_slope (lift_curve_slope body_lift_curve_slope
    wing_zero_lift_angle wing_area wing_exposed_area fuselage_planform_area
    vehicle_lift_coefficient : ℝ) (h0 : 0 < wing_area) (h1 : 0 < wing_exposed_area) (h2 : 0 <
    lift_curve_slope) (h3 : 0 < fuselage_planform_area) (h4 : 0 < body_lift_curve_slope) :
    HasDerivAt (fun t => out_vehicle_angle_of_attack t body_lift_curve_slope wing_zero_lift_angle wing_area wing_exposed_area fuselage_planform_area vehicle_lift_coefficient) (J_vehicle_angle_of_attack__lift_curve_slope lift_curve_slope body_lift_curve_slope wing_area wing_exposed_area fuselage_planform_area vehicle_lift_coefficient) lift_curve_slope := by
  simp only [out_vehicle_angle_of_attack, J_vehicle_angle_of_attack__lift_curve_slope, dmod_dlift_curve_slope, alpha, mod_lift_curve_slope]
  (apply hasDerivAt_of_eq; on_goal 1 => (repeat' comp_step))
  all_goals try comp_side
  all_goals try simp only [mul_zero, zero_mul, add_zero, zero_add, sub_zero, zero_sub, mul_one, one_mul]
  all_goals try push_cast
  all_goals comp_eq

theorem d_vehicle_angle_of_attack__body_lift_curve_slope (lift_curve_slope body_lift_curve_slope
    wing_zero_lift_angle wing_area wing_exposed_area fuselage_planform_area
    vehicle_lift_coefficient : ℝ) (h0 : 0 < wing_area) (h1 : 0 < wing_exposed_area) (h2 : 0 <
    lift_curve_slope) (h3 : 0 < fuselage_planform_area) (h4 : 0 < body_lift_curve_slope) :
    HasDerivAt (fun t => out_vehicle_angle_of_attack lift_curve_slope t wing_zero_lift_angle wing_area wing_exposed_area fuselage_planform_area vehicle_lift_coefficient) (J_vehicle_angle_of_attack__body_lift_curve_slope lift_curve_slope body_lift_curve_slope wing_area wing_exposed_area fuselage_planform_area vehicle_lift_coefficient) body_lift_curve_slope := by
  simp only [out_vehicle_angle_of_attack, J_vehicle_angle_of_attack__body_lift_curve_slope, dmod_dbody_lift_curve_slope, alpha, mod_lift_curve_slope]
  (apply hasDerivAt_of_eq; on_goal 1 => (repeat' comp_step))
  all_goals try comp_side
  all_goals try simp only [mul_zero, zero_mul, add_zero, zero_add, sub_zero, zero_sub, mul_one, one_mul]
  all_goals try push_cast
  all_goals comp_eq

theorem d_vehicle_angle_of_attack__wing_zero_lift_angle (lift_curve_slope body_lift_curve_slope
    wing_zero_lift_angle wing_area wing_exposed_area fuselage_planform_area
    vehicle_lift_coefficient : ℝ) (h0 : 0 < wing_area) (h1 : 0 < wing_exposed_area) (h2 : 0 <
    lift_curve_slope) (h3 : 0 < fuselage_planform_area) (h4 : 0 < body_lift_curve_slope) :
    HasDerivAt (fun t => out_vehicle_angle_of_attack lift_curve_slope body_lift_curve_slope t wing_area wing_exposed_area fuselage_planform_area vehicle_lift_coefficient) (J_vehicle_angle_of_attack__wing_zero_lift_angle) wing_zero_lift_angle := by
  simp only [out_vehicle_angle_of_attack, J_vehicle_angle_of_attack__wing_zero_lift_angle, alpha, mod_lift_curve_slope]
  (apply hasDerivAt_of_eq; on_goal 1 => (repeat' comp_step))
  all_goals try comp_side
  all_goals try simp only [mul_zero, zero_mul, add_zero, zero_add, sub_zero, zero_sub, mul_one, one_mul]
  all_goals try push_cast
  all_goals comp_eq

theorem d_vehicle_angle_of_attack__wing_area (lift_curve_slope body_lift_curve_slope
    wing_zero_lift_angle wing_area wing_exposed_area fuselage_planform_area
    vehicle_lift_coefficient : ℝ) (h0 : 0 < wing_area) (h1 : 0 < wing_exposed_area) (h2 : 0 <
    lift_curve_slope) (h3 : 0 < fuselage_planform_area) (h4 : 0 < body_lift_curve_slope) :
    HasDerivAt (fun t => out_vehicle_angle_of_attack lift_curve_slope body_lift_curve_slope wing_zero_lift_angle t wing_exposed_area fuselage_planform_area vehicle_lift_coefficient) (J_vehicle_angle_of_attack__wing_area lift_curve_slope body_lift_curve_slope wing_area wing_exposed_area fuselage_planform_area vehicle_lift_coefficient) wing_area := by
  simp only [out_vehicle_angle_of_attack, J_vehicle_angle_of_attack__wing_area, dmod_dwing_area, alpha, mod_lift_curve_slope]
  (apply hasDerivAt_of_eq; on_goal 1 => (repeat' comp_step))
  all_goals try comp_side
  all_goals try simp only [mul_zero, zero_mul, add_zero, zero_add, sub_zero, zero_sub, mul_one, one_mul]
  all_goals try push_cast
  all_goals comp_eq

theorem d_vehicle_angle_of_attack__wing_exposed_area (lift_curve_slope body_lift_curve_slope
    wing_zero_lift_angle wing_area wing_exposed_area fuselage_planform_area
    vehicle_lift_coefficient : ℝ) (h0 : 0 < wing_area) (h1 : 0 < wing_exposed_area) (h2 : 0 <
    lift_curve_slope) (h3 : 0 < fuselage_planform_area) (h4 : 0 < body_lift_curve_slope) :
    HasDerivAt (fun t => out_vehicle_angle_of_attack lift_curve_slope body_lift_curve_slope wing_zero_lift_angle wing_area t fuselage_planform_area vehicle_lift_coefficient) (J_vehicle_angle_of_attack__wing_exposed_area lift_curve_slope body_lift_curve_slope wing_area wing_exposed_area fuselage_planform_area vehicle_lift_coefficient) wing_exposed_area := by
  simp only [out_vehicle_angle_of_attack, J_vehicle_angle_of_attack__wing_exposed_area, dmod_dexp_wing_area, alpha, mod_lift_curve_slope]
  (apply hasDerivAt_of_eq; on_goal 1 => (repeat' comp_step))
  all_goals try comp_side
  all_goals try simp only [mul_zero, zero_mul, add_zero, zero_add, sub_zero, zero_sub, mul_one, one_mul]
  all_goals try push_cast
  all_goals comp_eq

theorem d_vehicle_angle_of_attack__fuselage_planform_area (lift_curve_slope body_lift_curve_slope
    wing_zero_lift_angle wing_area wing_exposed_area fuselage_planform_area
    vehicle_lift_coefficient : ℝ) (h0 : 0 < wing_area) (h1 : 0 < wing_exposed_area) (h2 : 0 <
    lift_curve_slope) (h3 : 0 < fuselage_planform_area) (h4 : 0 < body_lift_curve_slope) :
    HasDerivAt (fun t => out_vehicle_angle_of_attack lift_curve_slope body_lift_curve_slope wing_zero_lift_angle wing_area wing_exposed_area t vehicle_lift_coefficient) (J_vehicle_angle_of_attack__fuselage_planform_area lift_curve_slope body_lift_curve_slope wing_area wing_exposed_area fuselage_planform_area vehicle_lift_coefficient) fuselage_planform_area := by
  simp only [out_vehicle_angle_of_attack, J_vehicle_angle_of_attack__fuselage_planform_area, dmod_dplanform, alpha, mod_lift_curve_slope]
  (apply hasDerivAt_of_eq; on_goal 1 => (repeat' comp_step))
  all_goals try comp_side
  all_goals try simp only [mul_zero, zero_mul, add_zero, zero_add, sub_zero, zero_sub, mul_one, one_mul]
  all_goals try push_cast
  all_goals comp_eq

theorem d_vehicle_angle_of_attack__vehicle_lift_coefficient (lift_curve_slope
    body_lift_curve_slope wing_zero_lift_angle wing_area wing_exposed_area fuselage_planform_area
    vehicle_lift_coefficient : ℝ) (h0 : 0 < wing_area) (h1 : 0 < wing_exposed_area) (h2 : 0 <
    lift_curve_slope) (h3 : 0 < fuselage_planform_area) (h4 : 0 < body_lift_curve_slope) :
    HasDerivAt (fun t => out_vehicle_angle_of_attack lift_curve_slope body_lift_curve_slope wing_zero_lift_angle wing_area wing_exposed_area fuselage_planform_area t) (J_vehicle_angle_of_attack__vehicle_lift_coefficient lift_curve_slope body_lift_curve_slope wing_area wing_exposed_area fuselage_planform_area) vehicle_lift_coefficient := by
  simp only [out_vehicle_angle_of_attack, J_vehicle_angle_of_attack__vehicle_lift_coefficient, alpha, mod_lift_curve_slope]
  (apply hasDerivAt_of_eq; on_goal 1 => (repeat' comp_step))
  all_goals try comp_side
  all_goals try simp only [mul_zero, zero_mul, add_zero, zero_add, sub_zero, zero_sub, mul_one, one_mul]
  all_goals try push_cast
  all_goals comp_eq

theorem d_alpha_stall__lift_curve_slope (lift_curve_slope wing_zero_lift_angle
    design_lift_coefficient_max_flaps_up : ℝ) (h0 : 0 < lift_curve_slope) :
    HasDerivAt (fun t => out_alpha_stall t wing_zero_lift_angle design_lift_coefficient_max_flaps_up) (J_alpha_stall__lift_curve_slope lift_curve_slope design_lift_coefficient_max_flaps_up) lift_curve_slope := by
  simp only [out_alpha_stall, J_alpha_stall__lift_curve_slope, alpha_stall]
  (apply hasDerivAt_of_eq; on_goal 1 => (repeat' comp_step))
  all_goals try comp_side
  all_goals try simp only [mul_zero, zero_mul, add_zero, zero_add, sub_zero, zero_sub, mul_one, one_mul]
  all_goals try push_cast
  all_goals comp_eq

theorem d_alpha_stall__wing_zero_lift_angle (lift_curve_slope wing_zero_lift_angle
    design_lift_coefficient_max_flaps_up : ℝ) (h0 : 0 < lift_curve_slope) :
    HasDerivAt (fun t => out_alpha_stall lift_curve_slope t design_lift_coefficient_max_flaps_up) (J_alpha_stall__wing_zero_lift_angle) wing_zero_lift_angle := by
  simp only [out_alpha_stall, J_alpha_stall__wing_zero_lift_angle, alpha_stall]
  (apply hasDerivAt_of_eq; on_goal 1 => (repeat' comp_step))
  all_goals try comp_side
  all_goals try simp only [mul_zero, zero_mul, add_zero, zero_add, sub_zero, zero_sub, mul_one, one_mul]
  all_goals try push_cast
  all_goals comp_eq

theorem d_alpha_stall__design_lift_coefficient_max_flaps_up (lift_curve_slope wing_zero_lift_angle
    design_lift_coefficient_max_flaps_up : ℝ) (h0 : 0 < lift_curve_slope) :
    HasDerivAt (fun t => out_alpha_stall lift_curve_slope wing_zero_lift_angle t) (J_alpha_stall__design_lift_coefficient_max_flaps_up lift_curve_slope) design_lift_coefficient_max_flaps_up := by
  simp only [out_alpha_stall, J_alpha_stall__design_lift_coefficient_max_flaps_up, alpha_stall]
  (apply hasDerivAt_of_eq; on_goal 1 => (repeat' comp_step))
  all_goals try comp_side
  all_goals try simp only [mul_zero, zero_mul, add_zero, zero_add, sub_zero, zero_sub, mul_one, one_mul]
  all_goals try push_cast
  all_goals comp_eq

theorem d_cl_max__design_lift_coefficient_max_flaps_up (design_lift_coefficient_max_flaps_up : ℝ)
    :
    HasDerivAt (fun t => out_cl_max t) (J_cl_max__design_lift_coefficient_max_flaps_up) design_lift_coefficient_max_flaps_up := by
  simp only [out_cl_max, J_cl_max__design_lift_coefficient_max_flaps_up]
  (apply hasDerivAt_of_eq; on_goal 1 => (repeat' comp_step))
  all_goals try comp_side
  all_goals try simp only [mul_zero, zero_mul, add_zero, zero_add, sub_zero, zero_sub, mul_one, one_mul]
  all_goals try push_cast
  all_goals comp_eq

/-- Every partial derivative set by `BWBLiftCoeffClean` is the derivative of its output. -/
theorem partials (lift_curve_slope body_lift_curve_slope wing_zero_lift_angle
    design_lift_coefficient_max_flaps_up wing_area wing_exposed_area fuselage_planform_area
    vehicle_lift_coefficient : ℝ) (h0 : 0 < wing_area) (h1 : 0 < wing_exposed_area) (h2 : 0 <
    lift_curve_slope) (h3 : 0 < fuselage_planform_area) (h4 : 0 < body_lift_curve_slope) :
    HasDerivAt (fun t => out_mod_lift_curve_slope t body_lift_curve_slope wing_area wing_exposed_area
      fuselage_planform_area) (J_mod_lift_curve_slope__lift_curve_slope wing_area
      wing_exposed_area) lift_curve_slope ∧
    HasDerivAt (fun t => out_mod_lift_curve_slope lift_curve_slope t wing_area wing_exposed_area
      fuselage_planform_area) (J_mod_lift_curve_slope__body_lift_curve_slope wing_area
      fuselage_planform_area) body_lift_curve_slope ∧
    HasDerivAt (fun t => out_mod_lift_curve_slope lift_curve_slope body_lift_curve_slope t
      wing_exposed_area fuselage_planform_area) (J_mod_lift_curve_slope__wing_area
      lift_curve_slope body_lift_curve_slope wing_area wing_exposed_area fuselage_planform_area)
      wing_area ∧
    HasDerivAt (fun t => out_mod_lift_curve_slope lift_curve_slope body_lift_curve_slope wing_area t
      fuselage_planform_area) (J_mod_lift_curve_slope__wing_exposed_area lift_curve_slope
      wing_area) wing_exposed_area ∧
    HasDerivAt (fun t => out_mod_lift_curve_slope lift_curve_slope body_lift_curve_slope wing_area
      wing_exposed_area t) (J_mod_lift_curve_slope__fuselage_planform_area body_lift_curve_slope
      wing_area) fuselage_planform_area ∧
    HasDerivAt (fun t => out_vehicle_angle_of_attack t body_lift_curve_slope wing_zero_lift_angle
      wing_area wing_exposed_area fuselage_planform_area vehicle_lift_coefficient)
      (J_vehicle_angle_of_attack__lift_curve_slope lift_curve_slope body_lift_curve_slope
      wing_area wing_exposed_area fuselage_planform_area vehicle_lift_coefficient)
      lift_curve_slope ∧
    HasDerivAt (fun t => out_vehicle_angle_of_attack lift_curve_slope t wing_zero_lift_angle wing_area
      wing_exposed_area fuselage_planform_area vehicle_lift_coefficient)
      (J_vehicle_angle_of_attack__body_lift_curve_slope lift_curve_slope body_lift_curve_slope
      wing_area wing_exposed_area fuselage_planform_area vehicle_lift_coefficient)
      body_lift_curve_slope ∧
    HasDerivAt (fun t => out_vehicle_angle_of_attack lift_curve_slope body_lift_curve_slope t
      wing_area wing_exposed_area fuselage_planform_area vehicle_lift_coefficient)
      (J_vehicle_angle_of_attack__wing_zero_lift_angle) wing_zero_lift_angle ∧
    HasDerivAt (fun t => out_vehicle_angle_of_attack lift_curve_slope body_lift_curve_slope
      wing_zero_lift_angle t wing_exposed_area fuselage_planform_area vehicle_lift_coefficient)
      (J_vehicle_angle_of_attack__wing_area lift_curve_slope body_lift_curve_slope wing_area
      wing_exposed_area fuselage_planform_area vehicle_lift_coefficient) wing_area ∧
    HasDerivAt (fun t => out_vehicle_angle_of_attack lift_curve_slope body_lift_curve_slope
      wing_zero_lift_angle wing_area t fuselage_planform_area vehicle_lift_coefficient)
      (J_vehicle_angle_of_attack__wing_exposed_area lift_curve_slope body_lift_curve_slope
      wing_area wing_exposed_area fuselage_planform_area vehicle_lift_coefficient)
      wing_exposed_area ∧
    HasDerivAt (fun t => out_vehicle_angle_of_attack lift_curve_slope body_lift_curve_slope
      wing_zero_lift_angle wing_area wing_exposed_area t vehicle_lift_coefficient)
      (J_vehicle_angle_of_attack__fuselage_planform_area lift_curve_slope body_lift_curve_slope
      wing_area wing_exposed_area fuselage_planform_area vehicle_lift_coefficient)
      fuselage_planform_area ∧
    HasDerivAt (fun t => out_vehicle_angle_of_attack lift_curve_slope body_lift_curve_slope
      wing_zero_lift_angle wing_area wing_exposed_area fuselage_planform_area t)
      (J_vehicle_angle_of_attack__vehicle_lift_coefficient lift_curve_slope body_lift_curve_slope
      wing_area wing_exposed_area fuselage_planform_area) vehicle_lift_coefficient ∧
    HasDerivAt (fun t => out_alpha_stall t wing_zero_lift_angle design_lift_coefficient_max_flaps_up)
      (J_alpha_stall__lift_curve_slope lift_curve_slope design_lift_coefficient_max_flaps_up)
      lift_curve_slope ∧
    HasDerivAt (fun t => out_alpha_stall lift_curve_slope t design_lift_coefficient_max_flaps_up)
      (J_alpha_stall__wing_zero_lift_angle) wing_zero_lift_angle ∧
    HasDerivAt (fun t => out_alpha_stall lift_curve_slope wing_zero_lift_angle t)
      (J_alpha_stall__design_lift_coefficient_max_flaps_up lift_curve_slope)
      design_lift_coefficient_max_flaps_up ∧
    HasDerivAt (fun t => out_cl_max t) (J_cl_max__design_lift_coefficient_max_flaps_up)
      design_lift_coefficient_max_flaps_up :=
  ⟨d_mod_lift_curve_slope__lift_curve_slope _ _ _ _ _ h0,
    d_mod_lift_curve_slope__body_lift_curve_slope _ _ _ _ _ h0, d_mod_lift_curve_slope__wing_area
    _ _ _ _ _ h0, d_mod_lift_curve_slope__wing_exposed_area _ _ _ _ _ h0,
    d_mod_lift_curve_slope__fuselage_planform_area _ _ _ _ _ h0,
    d_vehicle_angle_of_attack__lift_curve_slope _ _ _ _ _ _ _ h0 h1 h2 h3 h4,
    d_vehicle_angle_of_attack__body_lift_curve_slope _ _ _ _ _ _ _ h0 h1 h2 h3 h4,
    d_vehicle_angle_of_attack__wing_zero_lift_angle _ _ _ _ _ _ _ h0 h1 h2 h3 h4,
    d_vehicle_angle_of_attack__wing_area _ _ _ _ _ _ _ h0 h1 h2 h3 h4,
    d_vehicle_angle_of_attack__wing_exposed_area _ _ _ _ _ _ _ h0 h1 h2 h3 h4,
    d_vehicle_angle_of_attack__fuselage_planform_area _ _ _ _ _ _ _ h0 h1 h2 h3 h4,
    d_vehicle_angle_of_attack__vehicle_lift_coefficient _ _ _ _ _ _ _ h0 h1 h2 h3 h4,
    d_alpha_stall__lift_curve_slope _ _ _ h2, d_alpha_stall__wing_zero_lift_angle _ _ _ h2,
    d_alpha_stall__design_lift_coefficient_max_flaps_up _ _ _ h2,
    d_cl_max__design_lift_coefficient_max_flaps_up _⟩

example : ∃ lift_curve_slope body_lift_curve_slope wing_zero_lift_angle
      design_lift_coefficient_max_flaps_up wing_area wing_exposed_area fuselage_planform_area
      vehicle_lift_coefficient : ℝ,
      0 < wing_area ∧
      0 < wing_exposed_area ∧
      0 < lift_curve_slope ∧
      0 < fuselage_planform_area ∧
      0 < body_lift_curve_slope :=
  ⟨1, 1, 0, 0, 1, 1, 1, 0, by comp_example, by comp_example, by comp_example, by comp_example, by
    comp_example⟩

end Verif.Comp.AerodynamicsGaspBasedGaspaero.BWBLiftCoeffClean_outputalpha

namespace Verif.Comp.AerodynamicsGaspBasedGaspaero.BWBLiftCoeffClean_no_outputalpha
open Real

/-- aviary/subsystems/aerodynamics/gasp_based/gaspaero.py:2325 -/
noncomputable def clw (lift_curve_slope wing_zero_lift_angle vehicle_angle_of_attack : ℝ) : ℝ :=
  ((lift_curve_slope * π) / 180) * (vehicle_angle_of_attack - wing_zero_lift_angle)

/-- aviary/subsystems/aerodynamics/gasp_based/gaspaero.py:2331 -/
noncomputable def alpha_stall (lift_curve_slope wing_zero_lift_angle design_lift_coefficient_max_flaps_up : ℝ) : ℝ :=
  (((design_lift_coefficient_max_flaps_up / lift_curve_slope) * 180) / π) + wing_zero_lift_angle

/-- Output `vehicle_lift_coefficient` of `BWBLiftCoeffClean.compute`, aviary/subsystems/aerodynamics/gasp_based/gaspaero.py:2326 -/
noncomputable def out_vehicle_lift_coefficient (lift_curve_slope body_lift_curve_slope wing_zero_lift_angle wing_area wing_exposed_area fuselage_planform_area vehicle_angle_of_attack : ℝ) : ℝ :=
  ((wing_exposed_area / wing_area) * (clw lift_curve_slope wing_zero_lift_angle
    vehicle_angle_of_attack)) + (((fuselage_planform_area / wing_area) *
    (((vehicle_angle_of_attack - wing_zero_lift_angle) * π) / 180)) * body_lift_curve_slope)

/-- Output `alpha_stall` of `BWBLiftCoeffClean.compute`, aviary/subsystems/aerodynamics/gasp_based/gaspaero.py:2332 -/
noncomputable def out_alpha_stall (lift_curve_slope wing_zero_lift_angle design_lift_coefficient_max_flaps_up : ℝ) : ℝ :=
  alpha_stall lift_curve_slope wing_zero_lift_angle design_lift_coefficient_max_flaps_up

/-- Output `cl_max` of `BWBLiftCoeffClean.compute`, aviary/subsystems/aerodynamics/gasp_based/gaspaero.py:2339 -/
noncomputable def out_cl_max (design_lift_coefficient_max_flaps_up : ℝ) : ℝ :=
  design_lift_coefficient_max_flaps_up

/-- Partial of `vehicle_lift_coefficient` with respect to `wing_exposed_area` as set by `BWBLiftCoeffClean`, aviary/subsystems/aerodynamics/gasp_based/gaspaero.py:2401 -/
noncomputable def J_vehicle_lift_coefficient__wing_exposed_area (lift_curve_slope wing_zero_lift_angle wing_area vehicle_angle_of_attack : ℝ) : ℝ :=
  ((((1 / wing_area) * lift_curve_slope) * π) / 180) * (vehicle_angle_of_attack -
    wing_zero_lift_angle)

/-- Partial of `vehicle_lift_coefficient` with respect to `fuselage_planform_area` as set by `BWBLiftCoeffClean`, aviary/subsystems/aerodynamics/gasp_based/gaspaero.py:2404 -/
noncomputable def J_vehicle_lift_coefficient__fuselage_planform_area (body_lift_curve_slope wing_zero_lift_angle wing_area vehicle_angle_of_attack : ℝ) : ℝ :=
  ((1 / wing_area) * (((vehicle_angle_of_attack - wing_zero_lift_angle) * π) / 180)) *
    body_lift_curve_slope

/-- Partial of `vehicle_lift_coefficient` with respect to `wing_area` as set by `BWBLiftCoeffClean`, aviary/subsystems/aerodynamics/gasp_based/gaspaero.py:2407 -/
noncomputable def J_vehicle_lift_coefficient__wing_area (lift_curve_slope body_lift_curve_slope wing_zero_lift_angle wing_area wing_exposed_area fuselage_planform_area vehicle_angle_of_attack : ℝ) : ℝ :=
  ((((((-wing_exposed_area) / (wing_area ^ 2)) * lift_curve_slope) * π) / 180) *
    (vehicle_angle_of_attack - wing_zero_lift_angle)) - (((fuselage_planform_area / (wing_area ^
    2)) * (((vehicle_angle_of_attack - wing_zero_lift_angle) * π) / 180)) *
    body_lift_curve_slope)

/-- Partial of `vehicle_lift_coefficient` with respect to `wing_zero_lift_angle` as set by `BWBLiftCoeffClean`, aviary/subsystems/aerodynamics/gasp_based/gaspaero.py:2411 -/
noncomputable def J_vehicle_lift_coefficient__wing_zero_lift_angle (lift_curve_slope body_lift_curve_slope wing_area wing_exposed_area fuselage_planform_area : ℝ) : ℝ :=
  (((((-wing_exposed_area) / wing_area) * lift_curve_slope) * π) / 180) -
    ((((fuselage_planform_area / wing_area) * body_lift_curve_slope) * π) / 180)

/-- Partial of `vehicle_lift_coefficient` with respect to `vehicle_angle_of_attack` as set by `BWBLiftCoeffClean`, aviary/subsystems/aerodynamics/gasp_based/gaspaero.py:2415 -/
noncomputable def J_vehicle_lift_coefficient__vehicle_angle_of_attack (lift_curve_slope body_lift_curve_slope wing_area wing_exposed_area fuselage_planform_area : ℝ) : ℝ :=
  ((((wing_exposed_area / wing_area) * lift_curve_slope) * π) / 180) +
    ((((fuselage_planform_area / wing_area) * body_lift_curve_slope) * π) / 180)

/-- Partial of `vehicle_lift_coefficient` with respect to `lift_curve_slope` as set by `BWBLiftCoeffClean`, aviary/subsystems/aerodynamics/gasp_based/gaspaero.py:2419 -/
noncomputable def J_vehicle_lift_coefficient__lift_curve_slope (wing_zero_lift_angle wing_area wing_exposed_area vehicle_angle_of_attack : ℝ) : ℝ :=
  (((wing_exposed_area / wing_area) * π) / 180) * (vehicle_angle_of_attack -
    wing_zero_lift_angle)

/-- Partial of `vehicle_lift_coefficient` with respect to `body_lift_curve_slope` as set by `BWBLiftCoeffClean`, aviary/subsystems/aerodynamics/gasp_based/gaspaero.py:2422 -/
noncomputable def J_vehicle_lift_coefficient__body_lift_curve_slope (wing_zero_lift_angle wing_area fuselage_planform_area vehicle_angle_of_attack : ℝ) : ℝ :=
  (((fuselage_planform_area / wing_area) * π) / 180) * (vehicle_angle_of_attack -
    wing_zero_lift_angle)

/-- Partial of `alpha_stall` with respect to `design_lift_coefficient_max_flaps_up` as set by `BWBLiftCoeffClean`, aviary/subsystems/aerodynamics/gasp_based/gaspaero.py:2426 -/
noncomputable def J_alpha_stall__design_lift_coefficient_max_flaps_up (lift_curve_slope : ℝ) : ℝ :=
  (180 / π) / lift_curve_slope

/-- Partial of `alpha_stall` with respect to `lift_curve_slope` as set by `BWBLiftCoeffClean`, aviary/subsystems/aerodynamics/gasp_based/gaspaero.py:2429 -/
noncomputable def J_alpha_stall__lift_curve_slope (lift_curve_slope design_lift_coefficient_max_flaps_up : ℝ) : ℝ :=
  (((-180) / π) * design_lift_coefficient_max_flaps_up) / (lift_curve_slope ^ 2)

/-- Partial of `alpha_stall` with respect to `wing_zero_lift_angle` as set by `BWBLiftCoeffClean`, aviary/subsystems/aerodynamics/gasp_based/gaspaero.py:2430 -/
noncomputable def J_alpha_stall__wing_zero_lift_angle : ℝ := 1

/-- Partial of `cl_max` with respect to `design_lift_coefficient_max_flaps_up` as set by `BWBLiftCoeffClean`, aviary/subsystems/aerodynamics/gasp_based/gaspaero.py:2431 -/
noncomputable def J_cl_max__design_lift_coefficient_max_flaps_up : ℝ := 1

theorem d_vehicle_lift_coefficient__lift_curve_slope (lift_curve_slope body_lift_curve_slope
    wing_zero_lift_angle wing_area wing_exposed_area fuselage_planform_area
    vehicle_angle_of_attack : ℝ) (h0 : 0 < wing_area) :
    HasDerivAt (fun t => out_vehicle_lift_coefficient t body_lift_curve_slope wing_zero_lift_angle wing_area wing_exposed_area fuselage_planform_area vehicle_angle_of_attack) (J_vehicle_lift_coefficient__lift_curve_slope wing_zero_lift_angle wing_area wing_exposed_area vehicle_angle_of_attack) lift_curve_slope := by
  simp only [out_vehicle_lift_coefficient, J_vehicle_lift_coefficient__lift_curve_slope, clw]
  (apply hasDerivAt_of_eq; on_goal 1 => (repeat' comp_step))
  all_goals try comp_side
  all_goals try simp only [mul_zero, zero_mul, add_zero, zero_add, sub_zero, zero_sub, mul_one, one_mul]
  all_goals try push_cast
  all_goals comp_eq

theorem d_vehicle_lift_coefficient__body_lift_curve_slope (lift_curve_slope body_lift_curve_slope
    wing_zero_lift_angle wing_area wing_exposed_area fuselage_planform_area
    vehicle_angle_of_attack : ℝ) (h0 : 0 < wing_area) :
    HasDerivAt (fun t => out_vehicle_lift_coefficient lift_curve_slope t wing_zero_lift_angle wing_area wing_exposed_area fuselage_planform_area vehicle_angle_of_attack) (J_vehicle_lift_coefficient__body_lift_curve_slope wing_zero_lift_angle wing_area fuselage_planform_area vehicle_angle_of_attack) body_lift_curve_slope := by
  simp only [out_vehicle_lift_coefficient, J_vehicle_lift_coefficient__body_lift_curve_slope, clw]
  (apply hasDerivAt_of_eq; on_goal 1 => (repeat' comp_step))
  all_goals try comp_side
  all_goals try simp only [mul_zero, zero_mul, add_zero, zero_add, sub_zero, zero_sub, mul_one, one_mul]
  all_goals try push_cast
  all_goals comp_eq

theorem d_vehicle_lift_coefficient__wing_zero_lift_angle (lift_curve_slope body_lift_curve_slope
    wing_zero_lift_angle wing_area wing_exposed_area fuselage_planform_area
    vehicle_angle_of_attack : ℝ) (h0 : 0 < wing_area) :
    HasDerivAt (fun t => out_vehicle_lift_coefficient lift_curve_slope body_lift_curve_slope t wing_area wing_exposed_area fuselage_planform_area vehicle_angle_of_attack) (J_vehicle_lift_coefficient__wing_zero_lift_angle lift_curve_slope body_lift_curve_slope wing_area wing_exposed_area fuselage_planform_area) wing_zero_lift_angle := by
  simp only [out_vehicle_lift_coefficient, J_vehicle_lift_coefficient__wing_zero_lift_angle, clw]
  (apply hasDerivAt_of_eq; on_goal 1 => (repeat' comp_step))
  all_goals try comp_side
  all_goals try simp only [mul_zero, zero_mul, add_zero, zero_add, sub_zero, zero_sub, mul_one, one_mul]
  all_goals try push_cast
  all_goals comp_eq

theorem d_vehicle_lift_coefficient__wing_area (lift_curve_slope body_lift_curve_slope
    wing_zero_lift_angle wing_area wing_exposed_area fuselage_planform_area
    vehicle_angle_of_attack : ℝ) (h0 : 0 < wing_area) :
    HasDerivAt (fun t => out_vehicle_lift_coefficient lift_curve_slope body_lift_curve_slope wing_zero_lift_angle t wing_exposed_area fuselage_planform_area vehicle_angle_of_attack) (J_vehicle_lift_coefficient__wing_area lift_curve_slope body_lift_curve_slope wing_zero_lift_angle wing_area wing_exposed_area fuselage_planform_area vehicle_angle_of_attack) wing_area := by
  simp only [out_vehicle_lift_coefficient, J_vehicle_lift_coefficient__wing_area, clw]
  (apply hasDerivAt_of_eq; on_goal 1 => (repeat' comp_step))
  all_goals try comp_side
  all_goals try simp only [mul_zero, zero_mul, add_zero, zero_add, sub_zero, zero_sub, mul_one, one_mul]
  all_goals try push_cast
  all_goals comp_eq

theorem d_vehicle_lift_coefficient__wing_exposed_area (lift_curve_slope body_lift_curve_slope
    wing_zero_lift_angle wing_area wing_exposed_area fuselage_planform_area
    vehicle_angle_of_attack : ℝ) (h0 : 0 < wing_area) :
    HasDerivAt (fun t => out_vehicle_lift_coefficient lift_curve_slope body_lift_curve_slope wing_zero_lift_angle wing_area t fuselage_planform_area vehicle_angle_of_attack) (J_vehicle_lift_coefficient__wing_exposed_area lift_curve_slope wing_zero_lift_angle wing_area vehicle_angle_of_attack) wing_exposed_area := by
  simp only [out_vehicle_lift_coefficient, J_vehicle_lift_coefficient__wing_exposed_area, clw]
  (apply hasDerivAt_of_eq; on_goal 1 => (repeat' comp_step))
  all_goals try comp_side
  all_goals try simp only [mul_zero, zero_mul, add_zero, zero_add, sub_zero, zero_sub, mul_one, one_mul]
  all_goals try push_cast
  all_goals comp_eq

theorem d_vehicle_lift_coefficient__fuselage_planform_area (lift_curve_slope body_lift_curve_slope
    wing_zero_lift_angle wing_area wing_exposed_area fuselage_planform_area
    vehicle_angle_of_attack : ℝ) (h0 : 0 < wing_area) :
    HasDerivAt (fun t => out_vehicle_lift_coefficient lift_curve_slope body_lift_curve_slope wing_zero_lift_angle wing_area wing_exposed_area t vehicle_angle_of_attack) (J_vehicle_lift_coefficient__fuselage_planform_area body_lift_curve_slope wing_zero_lift_angle wing_area vehicle_angle_of_attack) fuselage_planform_area := by
  simp only [out_vehicle_lift_coefficient, J_vehicle_lift_coefficient__fuselage_planform_area, clw]
  (apply hasDerivAt_of_eq; on_goal 1 => (repeat' comp_step))
  all_goals try comp_side
  all_goals try simp only [mul_zero, zero_mul, add_zero, zero_add, sub_zero, zero_sub, mul_one, one_mul]
  all_goals try push_cast
  all_goals comp_eq

theorem d_vehicle_lift_coefficient__vehicle_angle_of_attack (lift_curve_slope
    body_lift_curve_slope wing_zero_lift_angle wing_area wing_exposed_area fuselage_planform_area
    vehicle_angle_of_attack : ℝ) (h0 : 0 < wing_area) :
    HasDerivAt (fun t => out_vehicle_lift_coefficient lift_curve_slope body_lift_curve_slope wing_zero_lift_angle wing_area wing_exposed_area fuselage_planform_area t) (J_vehicle_lift_coefficient__vehicle_angle_of_attack lift_curve_slope body_lift_curve_slope wing_area wing_exposed_area fuselage_planform_area) vehicle_angle_of_attack := by
  simp only [out_vehicle_lift_coefficient, J_vehicle_lift_coefficient__vehicle_angle_of_attack, clw]
  (apply hasDerivAt_of_eq; on_goal 1 => (repeat' comp_step))
  all_goals try comp_side
  all_goals try simp only [mul_zero, zero_mul, add_zero, zero_add, sub_zero, zero_sub, mul_one, one_mul]
  all_goals try push_cast
  all_goals comp_eq

theorem d_alpha_stall__lift_curve_slope (lift_curve_slope wing_zero_lift_angle
    design_lift_coefficient_max_flaps_up : ℝ) (h0 : 0 < lift_curve_slope) :
    HasDerivAt (fun t => out_alpha_stall t wing_zero_lift_angle design_lift_coefficient_max_flaps_up) (J_alpha_stall__lift_curve_slope lift_curve_slope design_lift_coefficient_max_flaps_up) lift_curve_slope := by
  simp only [out_alpha_stall, J_alpha_stall__lift_curve_slope, alpha_stall]
  (apply hasDerivAt_of_eq; on_goal 1 => (repeat' comp_step))
  all_goals try comp_side
  all_goals try simp only [mul_zero, zero_mul, add_zero, zero_add, sub_zero, zero_sub, mul_one, one_mul]
  all_goals try push_cast
  all_goals comp_eq

theorem d_alpha_stall__wing_zero_lift_angle (lift_curve_slope wing_zero_lift_angle
    design_lift_coefficient_max_flaps_up : ℝ) (h0 : 0 < lift_curve_slope) :
    HasDerivAt (fun t => out_alpha_stall lift_curve_slope t design_lift_coefficient_max_flaps_up) (J_alpha_stall__wing_zero_lift_angle) wing_zero_lift_angle := by
  simp only [out_alpha_stall, J_alpha_stall__wing_zero_lift_angle, alpha_stall]
  (apply hasDerivAt_of_eq; on_goal 1 => (repeat' comp_step))
  all_goals try comp_side
  all_goals try simp only [mul_zero, zero_mul, add_zero, zero_add, sub_zero, zero_sub, mul_one, one_mul]
  all_goals try push_cast
  all_goals comp_eq

theorem d_alpha_stall__design_lift_coefficient_max_flaps_up (lift_curve_slope wing_zero_lift_angle
    design_lift_coefficient_max_flaps_up : ℝ) (h0 : 0 < lift_curve_slope) :
    HasDerivAt (fun t => out_alpha_stall lift_curve_slope wing_zero_lift_angle t) (J_alpha_stall__design_lift_coefficient_max_flaps_up lift_curve_slope) design_lift_coefficient_max_flaps_up := by
  simp only [out_alpha_stall, J_alpha_stall__design_lift_coefficient_max_flaps_up, alpha_stall]
  (apply hasDerivAt_of_eq; on_goal 1 => (repeat' comp_step))
  all_goals try comp_side
  all_goals try simp only [mul_zero, zero_mul, add_zero, zero_add, sub_zero, zero_sub, mul_one, one_mul]
  all_goals try push_cast
  all_goals comp_eq

theorem d_cl_max__design_lift_coefficient_max_flaps_up (design_lift_coefficient_max_flaps_up : ℝ)
    :
    HasDerivAt (fun t => out_cl_max t) (J_cl_max__design_lift_coefficient_max_flaps_up) design_lift_coefficient_max_flaps_up := by
  simp only [out_cl_max, J_cl_max__design_lift_coefficient_max_flaps_up]
  (apply hasDerivAt_of_eq; on_goal 1 => (repeat' comp_step))
  all_goals try comp_side
  all_goals try simp only [mul_zero, zero_mul, add_zero, zero_add, sub_zero, zero_sub, mul_one, one_mul]
  all_goals try push_cast
  all_goals comp_eq

/-- Every partial derivative set by `BWBLiftCoeffClean` is the derivative of its output. -/
theorem partials (lift_curve_slope body_lift_curve_slope wing_zero_lift_angle
    design_lift_coefficient_max_flaps_up wing_area wing_exposed_area fuselage_planform_area
    vehicle_angle_of_attack : ℝ) (h0 : 0 < wing_area) (h1 : 0 < lift_curve_slope) :
    HasDerivAt (fun t => out_vehicle_lift_coefficient t body_lift_curve_slope wing_zero_lift_angle
      wing_area wing_exposed_area fuselage_planform_area vehicle_angle_of_attack)
      (J_vehicle_lift_coefficient__lift_curve_slope wing_zero_lift_angle wing_area
      wing_exposed_area vehicle_angle_of_attack) lift_curve_slope ∧
    HasDerivAt (fun t => out_vehicle_lift_coefficient lift_curve_slope t wing_zero_lift_angle
      wing_area wing_exposed_area fuselage_planform_area vehicle_angle_of_attack)
      (J_vehicle_lift_coefficient__body_lift_curve_slope wing_zero_lift_angle wing_area
      fuselage_planform_area vehicle_angle_of_attack) body_lift_curve_slope ∧
    HasDerivAt (fun t => out_vehicle_lift_coefficient lift_curve_slope body_lift_curve_slope t
      wing_area wing_exposed_area fuselage_planform_area vehicle_angle_of_attack)
      (J_vehicle_lift_coefficient__wing_zero_lift_angle lift_curve_slope body_lift_curve_slope
      wing_area wing_exposed_area fuselage_planform_area) wing_zero_lift_angle ∧
    HasDerivAt (fun t => out_vehicle_lift_coefficient lift_curve_slope body_lift_curve_slope
      wing_zero_lift_angle t wing_exposed_area fuselage_planform_area vehicle_angle_of_attack)
      (J_vehicle_lift_coefficient__wing_area lift_curve_slope body_lift_curve_slope
      wing_zero_lift_angle wing_area wing_exposed_area fuselage_planform_area
      vehicle_angle_of_attack) wing_area ∧
    HasDerivAt (fun t => out_vehicle_lift_coefficient lift_curve_slope body_lift_curve_slope
      wing_zero_lift_angle wing_area t fuselage_planform_area vehicle_angle_of_attack)
      (J_vehicle_lift_coefficient__wing_exposed_area lift_curve_slope wing_zero_lift_angle
      wing_area vehicle_angle_of_attack) wing_exposed_area ∧
    HasDerivAt (fun t => out_vehicle_lift_coefficient lift_curve_slope body_lift_curve_slope
      wing_zero_lift_angle wing_area wing_exposed_area t vehicle_angle_of_attack)
      (J_vehicle_lift_coefficient__fuselage_planform_area body_lift_curve_slope
      wing_zero_lift_angle wing_area vehicle_angle_of_attack) fuselage_planform_area ∧
    HasDerivAt (fun t => out_vehicle_lift_coefficient lift_curve_slope body_lift_curve_slope
      wing_zero_lift_angle wing_area wing_exposed_area fuselage_planform_area t)
      (J_vehicle_lift_coefficient__vehicle_angle_of_attack lift_curve_slope body_lift_curve_slope
      wing_area wing_exposed_area fuselage_planform_area) vehicle_angle_of_attack ∧
    HasDerivAt (fun t => out_alpha_stall t wing_zero_lift_angle design_lift_coefficient_max_flaps_up)
      (J_alpha_stall__lift_curve_slope lift_curve_slope design_lift_coefficient_max_flaps_up)
      lift_curve_slope ∧
    HasDerivAt (fun t => out_alpha_stall lift_curve_slope t design_lift_coefficient_max_flaps_up)
      (J_alpha_stall__wing_zero_lift_angle) wing_zero_lift_angle ∧
    HasDerivAt (fun t => out_alpha_stall lift_curve_slope wing_zero_lift_angle t)
      (J_alpha_stall__design_lift_coefficient_max_flaps_up lift_curve_slope)
      design_lift_coefficient_max_flaps_up ∧
    HasDerivAt (fun t => out_cl_max t) (J_cl_max__design_lift_coefficient_max_flaps_up)
      design_lift_coefficient_max_flaps_up :=
  ⟨d_vehicle_lift_coefficient__lift_curve_slope _ _ _ _ _ _ _ h0,
    d_vehicle_lift_coefficient__body_lift_curve_slope _ _ _ _ _ _ _ h0,
    d_vehicle_lift_coefficient__wing_zero_lift_angle _ _ _ _ _ _ _ h0,
    d_vehicle_lift_coefficient__wing_area _ _ _ _ _ _ _ h0,
    d_vehicle_lift_coefficient__wing_exposed_area _ _ _ _ _ _ _ h0,
    d_vehicle_lift_coefficient__fuselage_planform_area _ _ _ _ _ _ _ h0,
    d_vehicle_lift_coefficient__vehicle_angle_of_attack _ _ _ _ _ _ _ h0,
    d_alpha_stall__lift_curve_slope _ _ _ h1, d_alpha_stall__wing_zero_lift_angle _ _ _ h1,
    d_alpha_stall__design_lift_coefficient_max_flaps_up _ _ _ h1,
    d_cl_max__design_lift_coefficient_max_flaps_up _⟩

example : ∃ lift_curve_slope body_lift_curve_slope wing_zero_lift_angle
      design_lift_coefficient_max_flaps_up wing_area wing_exposed_area fuselage_planform_area
      vehicle_angle_of_attack : ℝ,
      0 < wing_area ∧
      0 < lift_curve_slope :=
  ⟨1, 0, 0, 0, 1, 0, 0, 0, by comp_example, by comp_example⟩

end Verif.Comp.AerodynamicsGaspBasedGaspaero.BWBLiftCoeffClean_no_outputalpha

namespace Verif.Comp.AerodynamicsGaspBasedGaspaero.BWBSIWB
open Real

/-- aviary/subsystems/aerodynamics/gasp_based/gaspaero.py:517 -/
noncomputable def wfob (fuselage_hydraulic_diameter wing_span : ℝ) : ℝ :=
  fuselage_hydraulic_diameter / wing_span

/-- aviary/subsystems/aerodynamics/gasp_based/gaspaero.py:518 -/
noncomputable def siwb (fuselage_hydraulic_diameter wing_span : ℝ) : ℝ :=
  (((1 - ((11 / 1250) * (wfob fuselage_hydraulic_diameter wing_span))) - ((4341 / 2500) * ((wfob
    fuselage_hydraulic_diameter wing_span) ^ 2))) - ((2303 / 1000) * ((wfob
    fuselage_hydraulic_diameter wing_span) ^ 3))) + ((30303 / 5000) * ((wfob
    fuselage_hydraulic_diameter wing_span) ^ 4))

/-- aviary/subsystems/aerodynamics/gasp_based/gaspaero.py:528 -/
noncomputable def dsiwb_ddiam (fuselage_hydraulic_diameter wing_span : ℝ) : ℝ :=
  ((((-(11 / 1250)) / wing_span) - (((4341 / 1250) * (wfob fuselage_hydraulic_diameter
    wing_span)) / wing_span)) - (((6909 / 1000) * ((wfob fuselage_hydraulic_diameter wing_span)
    ^ 2)) / wing_span)) + (((30303 / 1250) * ((wfob fuselage_hydraulic_diameter wing_span) ^ 3))
    / wing_span)

/-- aviary/subsystems/aerodynamics/gasp_based/gaspaero.py:535 -/
noncomputable def dsiwb_dwingspan (fuselage_hydraulic_diameter wing_span : ℝ) : ℝ :=
  (((((11 / 1250) * fuselage_hydraulic_diameter) / (wing_span ^ 2)) + ((((4341 / 1250) * (wfob
    fuselage_hydraulic_diameter wing_span)) * fuselage_hydraulic_diameter) / (wing_span ^ 2))) +
    ((((6909 / 1000) * ((wfob fuselage_hydraulic_diameter wing_span) ^ 2)) *
    fuselage_hydraulic_diameter) / (wing_span ^ 2))) - ((((30303 / 1250) * ((wfob
    fuselage_hydraulic_diameter wing_span) ^ 3)) * fuselage_hydraulic_diameter) / (wing_span ^
    2))

/-- Output `siwb` of `BWBSIWB.compute`, aviary/subsystems/aerodynamics/gasp_based/gaspaero.py:519 -/
noncomputable def out_siwb (fuselage_hydraulic_diameter wing_span : ℝ) : ℝ :=
  siwb fuselage_hydraulic_diameter wing_span

/-- Partial of `siwb` with respect to `fuselage_hydraulic_diameter` as set by `BWBSIWB`, aviary/subsystems/aerodynamics/gasp_based/gaspaero.py:542 -/
noncomputable def J_siwb__fuselage_hydraulic_diameter (fuselage_hydraulic_diameter wing_span : ℝ) : ℝ :=
  dsiwb_ddiam fuselage_hydraulic_diameter wing_span

/-- Partial of `siwb` with respect to `wing_span` as set by `BWBSIWB`, aviary/subsystems/aerodynamics/gasp_based/gaspaero.py:543 -/
noncomputable def J_siwb__wing_span (fuselage_hydraulic_diameter wing_span : ℝ) : ℝ :=
  dsiwb_dwingspan fuselage_hydraulic_diameter wing_span

theorem d_siwb__fuselage_hydraulic_diameter (fuselage_hydraulic_diameter wing_span : ℝ) (h0 : 0 <
    wing_span) :
    HasDerivAt (fun t => out_siwb t wing_span) (J_siwb__fuselage_hydraulic_diameter fuselage_hydraulic_diameter wing_span) fuselage_hydraulic_diameter := by
  simp only [out_siwb, J_siwb__fuselage_hydraulic_diameter, dsiwb_ddiam, siwb, wfob]
  (apply hasDerivAt_of_eq; on_goal 1 => (repeat' comp_step))
  all_goals try comp_side
  all_goals try simp only [mul_zero, zero_mul, add_zero, zero_add, sub_zero, zero_sub, mul_one, one_mul]
  all_goals try push_cast
  all_goals comp_eq

theorem d_siwb__wing_span (fuselage_hydraulic_diameter wing_span : ℝ) (h0 : 0 < wing_span) :
    HasDerivAt (fun t => out_siwb fuselage_hydraulic_diameter t) (J_siwb__wing_span fuselage_hydraulic_diameter wing_span) wing_span := by
  simp only [out_siwb, J_siwb__wing_span, dsiwb_dwingspan, siwb, wfob]
  (apply hasDerivAt_of_eq; on_goal 1 => (repeat' comp_step))
  all_goals try comp_side
  all_goals try simp only [mul_zero, zero_mul, add_zero, zero_add, sub_zero, zero_sub, mul_one, one_mul]
  all_goals try push_cast
  all_goals comp_eq

/-- Every partial derivative set by `BWBSIWB` is the derivative of its output. -/
theorem partials (fuselage_hydraulic_diameter wing_span : ℝ) (h0 : 0 < wing_span) :
    HasDerivAt (fun t => out_siwb t wing_span) (J_siwb__fuselage_hydraulic_diameter
      fuselage_hydraulic_diameter wing_span) fuselage_hydraulic_diameter ∧
    HasDerivAt (fun t => out_siwb fuselage_hydraulic_diameter t) (J_siwb__wing_span
      fuselage_hydraulic_diameter wing_span) wing_span :=
  ⟨d_siwb__fuselage_hydraulic_diameter _ _ h0, d_siwb__wing_span _ _ h0⟩

example : ∃ fuselage_hydraulic_diameter wing_span : ℝ,
      0 < wing_span :=
  ⟨0, 1, by comp_example⟩

end Verif.Comp.AerodynamicsGaspBasedGaspaero.BWBSIWB

