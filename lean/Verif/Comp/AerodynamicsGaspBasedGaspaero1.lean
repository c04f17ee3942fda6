import Verif.Lemmas.CompDeriv

/-! # Partial derivatives of the components of `aviary/subsystems/aerodynamics/gasp_based/gaspaero.py`

One node of a vector component is modelled over the real numbers.  Each option that selects a
branch is fixed, one namespace per choice.  `out_x` is the output `x`, `J_x__y` the entry that
`compute_partials` (or `declare_partials` with `val`) assigns, `d_x__y` the proof that the entry is
the derivative.  Inputs an output does not take as argument have no influence on it.

* `BWBBodyLiftCurveSlope`: line 252: raise branch excluded -/

set_option linter.all false

namespace Verif.Comp.AerodynamicsGaspBasedGaspaero.BWBBodyLiftCurveSlope
open Real

/-- aviary/subsystems/aerodynamics/gasp_based/gaspaero.py:260 -/
noncomputable def clalph_b (atmosphere_mach fuselage_lift_curve_slope_mach0 : ℝ) : ℝ :=
  fuselage_lift_curve_slope_mach0 / (sqrt (1 - (atmosphere_mach ^ 2)))

/-- Output `body_lift_curve_slope` of `BWBBodyLiftCurveSlope.compute`, aviary/subsystems/aerodynamics/gasp_based/gaspaero.py:261 -/
noncomputable def out_body_lift_curve_slope (atmosphere_mach fuselage_lift_curve_slope_mach0 : ℝ) : ℝ :=
  clalph_b atmosphere_mach fuselage_lift_curve_slope_mach0

/-- Partial of `body_lift_curve_slope` with respect to `atmosphere_mach` as set by `BWBBodyLiftCurveSlope`, aviary/subsystems/aerodynamics/gasp_based/gaspaero.py:266 -/
noncomputable def J_body_lift_curve_slope__atmosphere_mach (atmosphere_mach fuselage_lift_curve_slope_mach0 : ℝ) : ℝ :=
  (fuselage_lift_curve_slope_mach0 * atmosphere_mach) / ((sqrt (1 - (atmosphere_mach ^ 2))) ^ 3)

/-- Partial of `body_lift_curve_slope` with respect to `fuselage_lift_curve_slope_mach0` as set by `BWBBodyLiftCurveSlope`, aviary/subsystems/aerodynamics/gasp_based/gaspaero.py:269 -/
noncomputable def J_body_lift_curve_slope__fuselage_lift_curve_slope_mach0 (atmosphere_mach : ℝ) : ℝ :=
  1 / (sqrt (1 - (atmosphere_mach ^ 2)))

theorem d_body_lift_curve_slope__atmosphere_mach (atmosphere_mach fuselage_lift_curve_slope_mach0
    : ℝ) (h0 : 0 < 1 - (atmosphere_mach ^ 2)) :
    HasDerivAt (fun t => out_body_lift_curve_slope t fuselage_lift_curve_slope_mach0) (J_body_lift_curve_slope__atmosphere_mach atmosphere_mach fuselage_lift_curve_slope_mach0) atmosphere_mach := by
  simp only [out_body_lift_curve_slope, J_body_lift_curve_slope__atmosphere_mach, clalph_b, sqrt_eq_rpow]
  (apply hasDerivAt_of_eq; on_goal 1 => (repeat' comp_step))
  all_goals try comp_side
  all_goals try simp (disch := first | assumption | positivity) only [div_mul_eq_div_div, div_half, inv_half]
  all_goals try simp only [mul_zero, zero_mul, add_zero, zero_add, sub_zero, zero_sub, mul_one, one_mul]
  all_goals try push_cast
  all_goals comp_eq

theorem d_body_lift_curve_slope__fuselage_lift_curve_slope_mach0 (atmosphere_mach
    fuselage_lift_curve_slope_mach0 : ℝ) (h0 : 0 < 1 - (atmosphere_mach ^ 2)) :
    HasDerivAt (fun t => out_body_lift_curve_slope atmosphere_mach t) (J_body_lift_curve_slope__fuselage_lift_curve_slope_mach0 atmosphere_mach) fuselage_lift_curve_slope_mach0 := by
  simp only [out_body_lift_curve_slope, J_body_lift_curve_slope__fuselage_lift_curve_slope_mach0, clalph_b, sqrt_eq_rpow]
  (apply hasDerivAt_of_eq; on_goal 1 => (repeat' comp_step))
  all_goals try comp_side
  all_goals try simp (disch := first | assumption | positivity) only [div_mul_eq_div_div, div_half, inv_half]
  all_goals try simp only [mul_zero, zero_mul, add_zero, zero_add, sub_zero, zero_sub, mul_one, one_mul]
  all_goals try push_cast
  all_goals comp_eq

/-- Every partial derivative set by `BWBBodyLiftCurveSlope` is the derivative of its output. -/
theorem partials (atmosphere_mach fuselage_lift_curve_slope_mach0 : ℝ) (h0 : 0 < 1 -
    (atmosphere_mach ^ 2)) :
    HasDerivAt (fun t => out_body_lift_curve_slope t fuselage_lift_curve_slope_mach0)
      (J_body_lift_curve_slope__atmosphere_mach atmosphere_mach fuselage_lift_curve_slope_mach0)
      atmosphere_mach ∧
    HasDerivAt (fun t => out_body_lift_curve_slope atmosphere_mach t)
      (J_body_lift_curve_slope__fuselage_lift_curve_slope_mach0 atmosphere_mach)
      fuselage_lift_curve_slope_mach0 :=
  ⟨d_body_lift_curve_slope__atmosphere_mach _ _ h0,
    d_body_lift_curve_slope__fuselage_lift_curve_slope_mach0 _ _ h0⟩

example : ∃ atmosphere_mach fuselage_lift_curve_slope_mach0 : ℝ,
      0 < 1 - (atmosphere_mach ^ 2) :=
  ⟨0, 0, by comp_example⟩

end Verif.Comp.AerodynamicsGaspBasedGaspaero.BWBBodyLiftCurveSlope

namespace Verif.Comp.AerodynamicsGaspBasedGaspaero.BWBLiftCoeff
open Real

/-- aviary/subsystems/aerodynamics/gasp_based/gaspaero.py:1894 -/
noncomputable def alpha_stall (lift_curve_slope wing_zero_lift_angle cl_max_flaps dcl_flaps_model kclge : ℝ) : ℝ :=
  ((((cl_max_flaps - dcl_flaps_model) / (kclge * lift_curve_slope)) * 180) / π) +
    wing_zero_lift_angle

/-- aviary/subsystems/aerodynamics/gasp_based/gaspaero.py:1905 -/
noncomputable def clw_full_flaps (vehicle_angle_of_attack lift_curve_slope wing_zero_lift_angle dcl_flaps_model kclge : ℝ) : ℝ :=
  ((kclge * lift_curve_slope) * (((vehicle_angle_of_attack - wing_zero_lift_angle) * π) / 180))
    + dcl_flaps_model

/-- aviary/subsystems/aerodynamics/gasp_based/gaspaero.py:1907 -/
noncomputable def clw_partial_flaps (vehicle_angle_of_attack lift_curve_slope wing_zero_lift_angle dcl_flaps_model kclge flap_factor : ℝ) : ℝ :=
  ((kclge * lift_curve_slope) * (((vehicle_angle_of_attack - wing_zero_lift_angle) * π) / 180))
    + (flap_factor * dcl_flaps_model)

/-- aviary/subsystems/aerodynamics/gasp_based/gaspaero.py:1909 -/
noncomputable def cl_body (vehicle_angle_of_attack wing_zero_lift_angle kclge body_lift_curve_slope wing_area fuselage_planform_area : ℝ) : ℝ :=
  (((fuselage_planform_area / wing_area) * kclge) * body_lift_curve_slope) *
    (((vehicle_angle_of_attack - wing_zero_lift_angle) * π) / 180)

/-- aviary/subsystems/aerodynamics/gasp_based/gaspaero.py:1953 -/
noncomputable def dcl_body_dplanform (vehicle_angle_of_attack wing_zero_lift_angle kclge body_lift_curve_slope wing_area : ℝ) : ℝ :=
  (((1 / wing_area) * kclge) * body_lift_curve_slope) * (((vehicle_angle_of_attack -
    wing_zero_lift_angle) * π) / 180)

/-- aviary/subsystems/aerodynamics/gasp_based/gaspaero.py:1954 -/
noncomputable def dcl_body_dwing_area (vehicle_angle_of_attack wing_zero_lift_angle kclge body_lift_curve_slope wing_area fuselage_planform_area : ℝ) : ℝ :=
  ((((-fuselage_planform_area) / (wing_area ^ 2)) * kclge) * body_lift_curve_slope) *
    (((vehicle_angle_of_attack - wing_zero_lift_angle) * π) / 180)

/-- aviary/subsystems/aerodynamics/gasp_based/gaspaero.py:1957 -/
noncomputable def dcl_body_dkclge (vehicle_angle_of_attack wing_zero_lift_angle body_lift_curve_slope wing_area fuselage_planform_area : ℝ) : ℝ :=
  ((fuselage_planform_area / wing_area) * body_lift_curve_slope) * (((vehicle_angle_of_attack -
    wing_zero_lift_angle) * π) / 180)

/-- aviary/subsystems/aerodynamics/gasp_based/gaspaero.py:1958 -/
noncomputable def dcl_body_dbody_lift_curve_slope (vehicle_angle_of_attack wing_zero_lift_angle kclge wing_area fuselage_planform_area : ℝ) : ℝ :=
  ((fuselage_planform_area / wing_area) * kclge) * (((vehicle_angle_of_attack -
    wing_zero_lift_angle) * π) / 180)

/-- aviary/subsystems/aerodynamics/gasp_based/gaspaero.py:1959 -/
noncomputable def dcl_body_dalpha (kclge body_lift_curve_slope wing_area fuselage_planform_area : ℝ) : ℝ :=
  ((((fuselage_planform_area / wing_area) * kclge) * body_lift_curve_slope) * π) / 180

/-- aviary/subsystems/aerodynamics/gasp_based/gaspaero.py:1960 -/
noncomputable def dcl_body_dalpha0 (kclge body_lift_curve_slope wing_area fuselage_planform_area : ℝ) : ℝ :=
  (((((-fuselage_planform_area) / wing_area) * kclge) * body_lift_curve_slope) * π) / 180

/-- aviary/subsystems/aerodynamics/gasp_based/gaspaero.py:1966 -/
noncomputable def dclw_full_flaps_dkclge (vehicle_angle_of_attack lift_curve_slope wing_zero_lift_angle wing_area wing_exposed_area : ℝ) : ℝ :=
  ((wing_exposed_area / wing_area) * lift_curve_slope) * (((vehicle_angle_of_attack -
    wing_zero_lift_angle) * π) / 180)

/-- aviary/subsystems/aerodynamics/gasp_based/gaspaero.py:1969 -/
noncomputable def dclw_full_flaps_dlift_curve_slope (vehicle_angle_of_attack wing_zero_lift_angle kclge wing_area wing_exposed_area : ℝ) : ℝ :=
  ((wing_exposed_area / wing_area) * kclge) * (((vehicle_angle_of_attack - wing_zero_lift_angle)
    * π) / 180)

/-- aviary/subsystems/aerodynamics/gasp_based/gaspaero.py:1972 -/
noncomputable def dclw_full_flaps_dalpha (lift_curve_slope kclge wing_area wing_exposed_area : ℝ) : ℝ :=
  ((((wing_exposed_area / wing_area) * kclge) * lift_curve_slope) * π) / 180

/-- aviary/subsystems/aerodynamics/gasp_based/gaspaero.py:1975 -/
noncomputable def dclw_full_flaps_dalpha0 (lift_curve_slope kclge wing_area wing_exposed_area : ℝ) : ℝ :=
  (((((-wing_exposed_area) / wing_area) * kclge) * lift_curve_slope) * π) / 180

/-- aviary/subsystems/aerodynamics/gasp_based/gaspaero.py:1978 -/
noncomputable def dclw_full_flaps_ddcl_flaps_model (wing_area wing_exposed_area : ℝ) : ℝ :=
  wing_exposed_area / wing_area

/-- aviary/subsystems/aerodynamics/gasp_based/gaspaero.py:1980 -/
noncomputable def cl_base (vehicle_angle_of_attack lift_curve_slope wing_zero_lift_angle kclge : ℝ) : ℝ :=
  (kclge * lift_curve_slope) * (((vehicle_angle_of_attack - wing_zero_lift_angle) * π) / 180)

/-- aviary/subsystems/aerodynamics/gasp_based/gaspaero.py:1982 -/
noncomputable def clw_full_flaps_2 (vehicle_angle_of_attack lift_curve_slope wing_zero_lift_angle dcl_flaps_model kclge : ℝ) : ℝ :=
  (cl_base vehicle_angle_of_attack lift_curve_slope wing_zero_lift_angle kclge) +
    dcl_flaps_model

/-- aviary/subsystems/aerodynamics/gasp_based/gaspaero.py:2007 -/
noncomputable def dclw_partial_flaps_dkclge (vehicle_angle_of_attack lift_curve_slope wing_zero_lift_angle wing_area wing_exposed_area : ℝ) : ℝ :=
  ((wing_exposed_area / wing_area) * lift_curve_slope) * (((vehicle_angle_of_attack -
    wing_zero_lift_angle) * π) / 180)

/-- aviary/subsystems/aerodynamics/gasp_based/gaspaero.py:2010 -/
noncomputable def dclw_partial_flaps_dlift_curve_slope (vehicle_angle_of_attack wing_zero_lift_angle kclge wing_area wing_exposed_area : ℝ) : ℝ :=
  ((wing_exposed_area / wing_area) * kclge) * (((vehicle_angle_of_attack - wing_zero_lift_angle)
    * π) / 180)

/-- aviary/subsystems/aerodynamics/gasp_based/gaspaero.py:2013 -/
noncomputable def dclw_partial_flaps_dalpha (lift_curve_slope kclge wing_area wing_exposed_area : ℝ) : ℝ :=
  ((((wing_exposed_area / wing_area) * kclge) * lift_curve_slope) * π) / 180

/-- aviary/subsystems/aerodynamics/gasp_based/gaspaero.py:2016 -/
noncomputable def dclw_partial_flaps_dalpha0 (lift_curve_slope kclge wing_area wing_exposed_area : ℝ) : ℝ :=
  (((((-wing_exposed_area) / wing_area) * kclge) * lift_curve_slope) * π) / 180

/-- aviary/subsystems/aerodynamics/gasp_based/gaspaero.py:2019 -/
noncomputable def dclw_partial_flaps_ddcl_flaps_model (flap_factor wing_area wing_exposed_area : ℝ) : ℝ :=
  (wing_exposed_area / wing_area) * flap_factor

/-- aviary/subsystems/aerodynamics/gasp_based/gaspaero.py:2020 -/
noncomputable def dclw_partial_flaps_dflap_factor (dcl_flaps_model wing_area wing_exposed_area : ℝ) : ℝ :=
  (wing_exposed_area / wing_area) * dcl_flaps_model

/-- aviary/subsystems/aerodynamics/gasp_based/gaspaero.py:2022 -/
noncomputable def dclw_partial_flaps (dcl_flaps_model flap_factor : ℝ) : ℝ :=
  flap_factor * dcl_flaps_model

/-- aviary/subsystems/aerodynamics/gasp_based/gaspaero.py:2023 -/
noncomputable def clw_partial_flaps_2 (vehicle_angle_of_attack lift_curve_slope wing_zero_lift_angle dcl_flaps_model kclge flap_factor : ℝ) : ℝ :=
  (cl_base vehicle_angle_of_attack lift_curve_slope wing_zero_lift_angle kclge) +
    (dclw_partial_flaps dcl_flaps_model flap_factor)

/-- Output `cl_base` of `BWBLiftCoeff.compute`, aviary/subsystems/aerodynamics/gasp_based/gaspaero.py:1892 -/
noncomputable def out_cl_base (vehicle_angle_of_attack lift_curve_slope wing_zero_lift_angle kclge : ℝ) : ℝ :=
  (kclge * lift_curve_slope) * (((vehicle_angle_of_attack - wing_zero_lift_angle) * π) / 180)

/-- Output `dcl_flaps_full` of `BWBLiftCoeff.compute`, aviary/subsystems/aerodynamics/gasp_based/gaspaero.py:1893 -/
noncomputable def out_dcl_flaps_full (dcl_flaps_model : ℝ) : ℝ := dcl_flaps_model

/-- Output `alpha_stall` of `BWBLiftCoeff.compute`, aviary/subsystems/aerodynamics/gasp_based/gaspaero.py:1897 -/
noncomputable def out_alpha_stall (lift_curve_slope wing_zero_lift_angle cl_max_flaps dcl_flaps_model kclge : ℝ) : ℝ :=
  alpha_stall lift_curve_slope wing_zero_lift_angle cl_max_flaps dcl_flaps_model kclge

/-- Output `cl_max` of `BWBLiftCoeff.compute`, aviary/subsystems/aerodynamics/gasp_based/gaspaero.py:1903 -/
noncomputable def out_cl_max (cl_max_flaps : ℝ) : ℝ := cl_max_flaps

/-- Output `cl_full_flaps` of `BWBLiftCoeff.compute`, aviary/subsystems/aerodynamics/gasp_based/gaspaero.py:1911 -/
noncomputable def out_cl_full_flaps (vehicle_angle_of_attack lift_curve_slope wing_zero_lift_angle dcl_flaps_model kclge body_lift_curve_slope wing_area wing_exposed_area fuselage_planform_area : ℝ) : ℝ :=
  ((wing_exposed_area / wing_area) * (clw_full_flaps vehicle_angle_of_attack lift_curve_slope
    wing_zero_lift_angle dcl_flaps_model kclge)) + (cl_body vehicle_angle_of_attack
    wing_zero_lift_angle kclge body_lift_curve_slope wing_area fuselage_planform_area)

/-- Output `vehicle_lift_coefficient` of `BWBLiftCoeff.compute`, aviary/subsystems/aerodynamics/gasp_based/gaspaero.py:1913 -/
noncomputable def out_vehicle_lift_coefficient (vehicle_angle_of_attack lift_curve_slope wing_zero_lift_angle dcl_flaps_model kclge flap_factor body_lift_curve_slope wing_area wing_exposed_area fuselage_planform_area : ℝ) : ℝ :=
  ((wing_exposed_area / wing_area) * (clw_partial_flaps vehicle_angle_of_attack lift_curve_slope
    wing_zero_lift_angle dcl_flaps_model kclge flap_factor)) + (cl_body vehicle_angle_of_attack
    wing_zero_lift_angle kclge body_lift_curve_slope wing_area fuselage_planform_area)

/-- Partial of `cl_base` with respect to `kclge` as set by `BWBLiftCoeff`, aviary/subsystems/aerodynamics/gasp_based/gaspaero.py:1931 -/
noncomputable def J_cl_base__kclge (vehicle_angle_of_attack lift_curve_slope wing_zero_lift_angle : ℝ) : ℝ :=
  lift_curve_slope * (((vehicle_angle_of_attack - wing_zero_lift_angle) * π) / 180)

/-- Partial of `cl_base` with respect to `lift_curve_slope` as set by `BWBLiftCoeff`, aviary/subsystems/aerodynamics/gasp_based/gaspaero.py:1932 -/
noncomputable def J_cl_base__lift_curve_slope (vehicle_angle_of_attack wing_zero_lift_angle kclge : ℝ) : ℝ :=
  kclge * (((vehicle_angle_of_attack - wing_zero_lift_angle) * π) / 180)

/-- Partial of `cl_base` with respect to `vehicle_angle_of_attack` as set by `BWBLiftCoeff`, aviary/subsystems/aerodynamics/gasp_based/gaspaero.py:1933 -/
noncomputable def J_cl_base__vehicle_angle_of_attack (lift_curve_slope kclge : ℝ) : ℝ :=
  ((kclge * lift_curve_slope) * π) / 180

/-- Partial of `cl_base` with respect to `wing_zero_lift_angle` as set by `BWBLiftCoeff`, aviary/subsystems/aerodynamics/gasp_based/gaspaero.py:1934 -/
noncomputable def J_cl_base__wing_zero_lift_angle (lift_curve_slope kclge : ℝ) : ℝ :=
  (((-kclge) * lift_curve_slope) * π) / 180

/-- Partial of `dcl_flaps_full` with respect to `dcl_flaps_model` as set by `BWBLiftCoeff`, aviary/subsystems/aerodynamics/gasp_based/gaspaero.py:1936 -/
noncomputable def J_dcl_flaps_full__dcl_flaps_model : ℝ := 1

/-- Partial of `alpha_stall` with respect to `cl_max_flaps` as set by `BWBLiftCoeff`, aviary/subsystems/aerodynamics/gasp_based/gaspaero.py:1938 -/
noncomputable def J_alpha_stall__cl_max_flaps (lift_curve_slope kclge : ℝ) : ℝ :=
  (180 / π) / (kclge * lift_curve_slope)

/-- Partial of `alpha_stall` with respect to `dcl_flaps_model` as set by `BWBLiftCoeff`, aviary/subsystems/aerodynamics/gasp_based/gaspaero.py:1939 -/
noncomputable def J_alpha_stall__dcl_flaps_model (lift_curve_slope kclge : ℝ) : ℝ :=
  ((-180) / π) / (kclge * lift_curve_slope)

/-- Partial of `alpha_stall` with respect to `kclge` as set by `BWBLiftCoeff`, aviary/subsystems/aerodynamics/gasp_based/gaspaero.py:1940 -/
noncomputable def J_alpha_stall__kclge (lift_curve_slope cl_max_flaps dcl_flaps_model kclge : ℝ) : ℝ :=
  -((((cl_max_flaps - dcl_flaps_model) / ((kclge ^ 2) * lift_curve_slope)) * 180) / π)

/-- Partial of `alpha_stall` with respect to `lift_curve_slope` as set by `BWBLiftCoeff`, aviary/subsystems/aerodynamics/gasp_based/gaspaero.py:1943 -/
noncomputable def J_alpha_stall__lift_curve_slope (lift_curve_slope cl_max_flaps dcl_flaps_model kclge : ℝ) : ℝ :=
  -((((cl_max_flaps - dcl_flaps_model) / (kclge * (lift_curve_slope ^ 2))) * 180) / π)

/-- Partial of `alpha_stall` with respect to `wing_zero_lift_angle` as set by `BWBLiftCoeff`, aviary/subsystems/aerodynamics/gasp_based/gaspaero.py:1946 -/
noncomputable def J_alpha_stall__wing_zero_lift_angle : ℝ := 1

/-- Partial of `cl_max` with respect to `cl_max_flaps` as set by `BWBLiftCoeff`, aviary/subsystems/aerodynamics/gasp_based/gaspaero.py:1948 -/
noncomputable def J_cl_max__cl_max_flaps : ℝ := 1

/-- Partial of `cl_full_flaps` with respect to `kclge` as set by `BWBLiftCoeff`, aviary/subsystems/aerodynamics/gasp_based/gaspaero.py:1984 -/
noncomputable def J_cl_full_flaps__kclge (vehicle_angle_of_attack lift_curve_slope wing_zero_lift_angle body_lift_curve_slope wing_area wing_exposed_area fuselage_planform_area : ℝ) : ℝ :=
  (dclw_full_flaps_dkclge vehicle_angle_of_attack lift_curve_slope wing_zero_lift_angle
    wing_area wing_exposed_area) + (dcl_body_dkclge vehicle_angle_of_attack wing_zero_lift_angle
    body_lift_curve_slope wing_area fuselage_planform_area)

/-- Partial of `cl_full_flaps` with respect to `lift_curve_slope` as set by `BWBLiftCoeff`, aviary/subsystems/aerodynamics/gasp_based/gaspaero.py:1985 -/
noncomputable def J_cl_full_flaps__lift_curve_slope (vehicle_angle_of_attack wing_zero_lift_angle kclge wing_area wing_exposed_area : ℝ) : ℝ :=
  dclw_full_flaps_dlift_curve_slope vehicle_angle_of_attack wing_zero_lift_angle kclge wing_area
    wing_exposed_area

/-- Partial of `cl_full_flaps` with respect to `vehicle_angle_of_attack` as set by `BWBLiftCoeff`, aviary/subsystems/aerodynamics/gasp_based/gaspaero.py:1986 -/
noncomputable def J_cl_full_flaps__vehicle_angle_of_attack (lift_curve_slope kclge body_lift_curve_slope wing_area wing_exposed_area fuselage_planform_area : ℝ) : ℝ :=
  (dclw_full_flaps_dalpha lift_curve_slope kclge wing_area wing_exposed_area) + (dcl_body_dalpha
    kclge body_lift_curve_slope wing_area fuselage_planform_area)

/-- Partial of `cl_full_flaps` with respect to `wing_zero_lift_angle` as set by `BWBLiftCoeff`, aviary/subsystems/aerodynamics/gasp_based/gaspaero.py:1989 -/
noncomputable def J_cl_full_flaps__wing_zero_lift_angle (lift_curve_slope kclge body_lift_curve_slope wing_area wing_exposed_area fuselage_planform_area : ℝ) : ℝ :=
  (dclw_full_flaps_dalpha0 lift_curve_slope kclge wing_area wing_exposed_area) +
    (dcl_body_dalpha0 kclge body_lift_curve_slope wing_area fuselage_planform_area)

/-- Partial of `cl_full_flaps` with respect to `dcl_flaps_model` as set by `BWBLiftCoeff`, aviary/subsystems/aerodynamics/gasp_based/gaspaero.py:1992 -/
noncomputable def J_cl_full_flaps__dcl_flaps_model (wing_area wing_exposed_area : ℝ) : ℝ :=
  dclw_full_flaps_ddcl_flaps_model wing_area wing_exposed_area

/-- Partial of `cl_full_flaps` with respect to `fuselage_planform_area` as set by `BWBLiftCoeff`, aviary/subsystems/aerodynamics/gasp_based/gaspaero.py:1999 -/
noncomputable def J_cl_full_flaps__fuselage_planform_area (vehicle_angle_of_attack wing_zero_lift_angle kclge body_lift_curve_slope wing_area : ℝ) : ℝ :=
  dcl_body_dplanform vehicle_angle_of_attack wing_zero_lift_angle kclge body_lift_curve_slope
    wing_area

/-- Partial of `cl_full_flaps` with respect to `wing_area` as set by `BWBLiftCoeff`, aviary/subsystems/aerodynamics/gasp_based/gaspaero.py:1995 -/
noncomputable def J_cl_full_flaps__wing_area (vehicle_angle_of_attack lift_curve_slope wing_zero_lift_angle dcl_flaps_model kclge body_lift_curve_slope wing_area wing_exposed_area fuselage_planform_area : ℝ) : ℝ :=
  (((-wing_exposed_area) / (wing_area ^ 2)) * (clw_full_flaps_2 vehicle_angle_of_attack
    lift_curve_slope wing_zero_lift_angle dcl_flaps_model kclge)) + (dcl_body_dwing_area
    vehicle_angle_of_attack wing_zero_lift_angle kclge body_lift_curve_slope wing_area
    fuselage_planform_area)

/-- Partial of `cl_full_flaps` with respect to `wing_exposed_area` as set by `BWBLiftCoeff`, aviary/subsystems/aerodynamics/gasp_based/gaspaero.py:1998 -/
noncomputable def J_cl_full_flaps__wing_exposed_area (vehicle_angle_of_attack lift_curve_slope wing_zero_lift_angle dcl_flaps_model kclge wing_area : ℝ) : ℝ :=
  (1 / wing_area) * (clw_full_flaps_2 vehicle_angle_of_attack lift_curve_slope
    wing_zero_lift_angle dcl_flaps_model kclge)

/-- Partial of `cl_full_flaps` with respect to `body_lift_curve_slope` as set by `BWBLiftCoeff`, aviary/subsystems/aerodynamics/gasp_based/gaspaero.py:2000 -/
noncomputable def J_cl_full_flaps__body_lift_curve_slope (vehicle_angle_of_attack wing_zero_lift_angle kclge wing_area fuselage_planform_area : ℝ) : ℝ :=
  dcl_body_dbody_lift_curve_slope vehicle_angle_of_attack wing_zero_lift_angle kclge wing_area
    fuselage_planform_area

/-- Partial of `vehicle_lift_coefficient` with respect to `kclge` as set by `BWBLiftCoeff`, aviary/subsystems/aerodynamics/gasp_based/gaspaero.py:2025 -/
noncomputable def J_vehicle_lift_coefficient__kclge (vehicle_angle_of_attack lift_curve_slope wing_zero_lift_angle body_lift_curve_slope wing_area wing_exposed_area fuselage_planform_area : ℝ) : ℝ :=
  (dclw_partial_flaps_dkclge vehicle_angle_of_attack lift_curve_slope wing_zero_lift_angle
    wing_area wing_exposed_area) + (dcl_body_dkclge vehicle_angle_of_attack wing_zero_lift_angle
    body_lift_curve_slope wing_area fuselage_planform_area)

/-- Partial of `vehicle_lift_coefficient` with respect to `lift_curve_slope` as set by `BWBLiftCoeff`, aviary/subsystems/aerodynamics/gasp_based/gaspaero.py:2026 -/
noncomputable def J_vehicle_lift_coefficient__lift_curve_slope (vehicle_angle_of_attack wing_zero_lift_angle kclge wing_area wing_exposed_area : ℝ) : ℝ :=
  dclw_partial_flaps_dlift_curve_slope vehicle_angle_of_attack wing_zero_lift_angle kclge
    wing_area wing_exposed_area

/-- Partial of `vehicle_lift_coefficient` with respect to `vehicle_angle_of_attack` as set by `BWBLiftCoeff`, aviary/subsystems/aerodynamics/gasp_based/gaspaero.py:2029 -/
noncomputable def J_vehicle_lift_coefficient__vehicle_angle_of_attack (lift_curve_slope kclge body_lift_curve_slope wing_area wing_exposed_area fuselage_planform_area : ℝ) : ℝ :=
  (dclw_partial_flaps_dalpha lift_curve_slope kclge wing_area wing_exposed_area) +
    (dcl_body_dalpha kclge body_lift_curve_slope wing_area fuselage_planform_area)

/-- Partial of `vehicle_lift_coefficient` with respect to `wing_zero_lift_angle` as set by `BWBLiftCoeff`, aviary/subsystems/aerodynamics/gasp_based/gaspaero.py:2032 -/
noncomputable def J_vehicle_lift_coefficient__wing_zero_lift_angle (lift_curve_slope kclge body_lift_curve_slope wing_area wing_exposed_area fuselage_planform_area : ℝ) : ℝ :=
  (dclw_partial_flaps_dalpha0 lift_curve_slope kclge wing_area wing_exposed_area) +
    (dcl_body_dalpha0 kclge body_lift_curve_slope wing_area fuselage_planform_area)

/-- Partial of `vehicle_lift_coefficient` with respect to `dcl_flaps_model` as set by `BWBLiftCoeff`, aviary/subsystems/aerodynamics/gasp_based/gaspaero.py:2035 -/
noncomputable def J_vehicle_lift_coefficient__dcl_flaps_model (flap_factor wing_area wing_exposed_area : ℝ) : ℝ :=
  dclw_partial_flaps_ddcl_flaps_model flap_factor wing_area wing_exposed_area

/-- Partial of `vehicle_lift_coefficient` with respect to `fuselage_planform_area` as set by `BWBLiftCoeff`, aviary/subsystems/aerodynamics/gasp_based/gaspaero.py:2042 -/
noncomputable def J_vehicle_lift_coefficient__fuselage_planform_area (vehicle_angle_of_attack wing_zero_lift_angle kclge body_lift_curve_slope wing_area : ℝ) : ℝ :=
  dcl_body_dplanform vehicle_angle_of_attack wing_zero_lift_angle kclge body_lift_curve_slope
    wing_area

/-- Partial of `vehicle_lift_coefficient` with respect to `wing_area` as set by `BWBLiftCoeff`, aviary/subsystems/aerodynamics/gasp_based/gaspaero.py:2038 -/
noncomputable def J_vehicle_lift_coefficient__wing_area (vehicle_angle_of_attack lift_curve_slope wing_zero_lift_angle dcl_flaps_model kclge flap_factor body_lift_curve_slope wing_area wing_exposed_area fuselage_planform_area : ℝ) : ℝ :=
  (((-wing_exposed_area) / (wing_area ^ 2)) * (clw_partial_flaps_2 vehicle_angle_of_attack
    lift_curve_slope wing_zero_lift_angle dcl_flaps_model kclge flap_factor)) +
    (dcl_body_dwing_area vehicle_angle_of_attack wing_zero_lift_angle kclge
    body_lift_curve_slope wing_area fuselage_planform_area)

/-- Partial of `vehicle_lift_coefficient` with respect to `wing_exposed_area` as set by `BWBLiftCoeff`, aviary/subsystems/aerodynamics/gasp_based/gaspaero.py:2041 -/
noncomputable def J_vehicle_lift_coefficient__wing_exposed_area (vehicle_angle_of_attack lift_curve_slope wing_zero_lift_angle dcl_flaps_model kclge flap_factor wing_area : ℝ) : ℝ :=
  (1 / wing_area) * (clw_partial_flaps_2 vehicle_angle_of_attack lift_curve_slope
    wing_zero_lift_angle dcl_flaps_model kclge flap_factor)

/-- Partial of `vehicle_lift_coefficient` with respect to `body_lift_curve_slope` as set by `BWBLiftCoeff`, aviary/subsystems/aerodynamics/gasp_based/gaspaero.py:2043 -/
noncomputable def J_vehicle_lift_coefficient__body_lift_curve_slope (vehicle_angle_of_attack wing_zero_lift_angle kclge wing_area fuselage_planform_area : ℝ) : ℝ :=
  dcl_body_dbody_lift_curve_slope vehicle_angle_of_attack wing_zero_lift_angle kclge wing_area
    fuselage_planform_area

/-- Partial of `vehicle_lift_coefficient` with respect to `flap_factor` as set by `BWBLiftCoeff`, aviary/subsystems/aerodynamics/gasp_based/gaspaero.py:2045 -/
noncomputable def J_vehicle_lift_coefficient__flap_factor (dcl_flaps_model wing_area wing_exposed_area : ℝ) : ℝ :=
  dclw_partial_flaps_dflap_factor dcl_flaps_model wing_area wing_exposed_area

theorem d_cl_base__vehicle_angle_of_attack (vehicle_angle_of_attack lift_curve_slope
    wing_zero_lift_angle kclge : ℝ)  :
    HasDerivAt (fun t => out_cl_base t lift_curve_slope wing_zero_lift_angle kclge) (J_cl_base__vehicle_angle_of_attack lift_curve_slope kclge) vehicle_angle_of_attack := by
  simp only [out_cl_base, J_cl_base__vehicle_angle_of_attack]
  (apply hasDerivAt_of_eq; on_goal 1 => (repeat' comp_step))
  all_goals try comp_side
  all_goals try simp only [mul_zero, zero_mul, add_zero, zero_add, sub_zero, zero_sub, mul_one, one_mul]
  all_goals try push_cast
  all_goals comp_eq

theorem d_cl_base__lift_curve_slope (vehicle_angle_of_attack lift_curve_slope wing_zero_lift_angle
    kclge : ℝ)  :
    HasDerivAt (fun t => out_cl_base vehicle_angle_of_attack t wing_zero_lift_angle kclge) (J_cl_base__lift_curve_slope vehicle_angle_of_attack wing_zero_lift_angle kclge) lift_curve_slope := by
  simp only [out_cl_base, J_cl_base__lift_curve_slope]
  (apply hasDerivAt_of_eq; on_goal 1 => (repeat' comp_step))
  all_goals try comp_side
  all_goals try simp only [mul_zero, zero_mul, add_zero, zero_add, sub_zero, zero_sub, mul_one, one_mul]
  all_goals try push_cast
  all_goals comp_eq

theorem d_cl_base__wing_zero_lift_angle (vehicle_angle_of_attack lift_curve_slope
    wing_zero_lift_angle kclge : ℝ)  :
    HasDerivAt (fun t => out_cl_base vehicle_angle_of_attack lift_curve_slope t kclge) (J_cl_base__wing_zero_lift_angle lift_curve_slope kclge) wing_zero_lift_angle := by
  simp only [out_cl_base, J_cl_base__wing_zero_lift_angle]
  (apply hasDerivAt_of_eq; on_goal 1 => (repeat' comp_step))
  all_goals try comp_side
  all_goals try simp only [mul_zero, zero_mul, add_zero, zero_add, sub_zero, zero_sub, mul_one, one_mul]
  all_goals try push_cast
  all_goals comp_eq

theorem d_cl_base__kclge (vehicle_angle_of_attack lift_curve_slope wing_zero_lift_angle kclge : ℝ)
    :
    HasDerivAt (fun t => out_cl_base vehicle_angle_of_attack lift_curve_slope wing_zero_lift_angle t) (J_cl_base__kclge vehicle_angle_of_attack lift_curve_slope wing_zero_lift_angle) kclge := by
  simp only [out_cl_base, J_cl_base__kclge]
  (apply hasDerivAt_of_eq; on_goal 1 => (repeat' comp_step))
  all_goals try comp_side
  all_goals try simp only [mul_zero, zero_mul, add_zero, zero_add, sub_zero, zero_sub, mul_one, one_mul]
  all_goals try push_cast
  all_goals comp_eq

theorem d_dcl_flaps_full__dcl_flaps_model (dcl_flaps_model : ℝ)  :
    HasDerivAt (fun t => out_dcl_flaps_full t) (J_dcl_flaps_full__dcl_flaps_model) dcl_flaps_model := by
  simp only [out_dcl_flaps_full, J_dcl_flaps_full__dcl_flaps_model]
  (apply hasDerivAt_of_eq; on_goal 1 => (repeat' comp_step))
  all_goals try comp_side
  all_goals try simp only [mul_zero, zero_mul, add_zero, zero_add, sub_zero, zero_sub, mul_one, one_mul]
  all_goals try push_cast
  all_goals comp_eq

theorem d_alpha_stall__lift_curve_slope (lift_curve_slope wing_zero_lift_angle cl_max_flaps
    dcl_flaps_model kclge : ℝ) (h0 : 0 < kclge) (h1 : 0 < lift_curve_slope) :
    HasDerivAt (fun t => out_alpha_stall t wing_zero_lift_angle cl_max_flaps dcl_flaps_model kclge) (J_alpha_stall__lift_curve_slope lift_curve_slope cl_max_flaps dcl_flaps_model kclge) lift_curve_slope := by
  simp only [out_alpha_stall, J_alpha_stall__lift_curve_slope, alpha_stall]
  (apply hasDerivAt_of_eq; on_goal 1 => (repeat' comp_step))
  all_goals try comp_side
  all_goals try simp only [mul_zero, zero_mul, add_zero, zero_add, sub_zero, zero_sub, mul_one, one_mul]
  all_goals try push_cast
  all_goals comp_eq

theorem d_alpha_stall__wing_zero_lift_angle (lift_curve_slope wing_zero_lift_angle cl_max_flaps
    dcl_flaps_model kclge : ℝ) (h0 : 0 < kclge) (h1 : 0 < lift_curve_slope) :
    HasDerivAt (fun t => out_alpha_stall lift_curve_slope t cl_max_flaps dcl_flaps_model kclge) (J_alpha_stall__wing_zero_lift_angle) wing_zero_lift_angle := by
  simp only [out_alpha_stall, J_alpha_stall__wing_zero_lift_angle, alpha_stall]
  (apply hasDerivAt_of_eq; on_goal 1 => (repeat' comp_step))
  all_goals try comp_side
  all_goals try simp only [mul_zero, zero_mul, add_zero, zero_add, sub_zero, zero_sub, mul_one, one_mul]
  all_goals try push_cast
  all_goals comp_eq

theorem d_alpha_stall__cl_max_flaps (lift_curve_slope wing_zero_lift_angle cl_max_flaps
    dcl_flaps_model kclge : ℝ) (h0 : 0 < kclge) (h1 : 0 < lift_curve_slope) :
    HasDerivAt (fun t => out_alpha_stall lift_curve_slope wing_zero_lift_angle t dcl_flaps_model kclge) (J_alpha_stall__cl_max_flaps lift_curve_slope kclge) cl_max_flaps := by
  simp only [out_alpha_stall, J_alpha_stall__cl_max_flaps, alpha_stall]
  (apply hasDerivAt_of_eq; on_goal 1 => (repeat' comp_step))
  all_goals try comp_side
  all_goals try simp only [mul_zero, zero_mul, add_zero, zero_add, sub_zero, zero_sub, mul_one, one_mul]
  all_goals try push_cast
  all_goals comp_eq

theorem d_alpha_stall__dcl_flaps_model (lift_curve_slope wing_zero_lift_angle cl_max_flaps
    dcl_flaps_model kclge : ℝ) (h0 : 0 < kclge) (h1 : 0 < lift_curve_slope) :
    HasDerivAt (fun t => out_alpha_stall lift_curve_slope wing_zero_lift_angle cl_max_flaps t kclge) (J_alpha_stall__dcl_flaps_model lift_curve_slope kclge) dcl_flaps_model := by
  simp only [out_alpha_stall, J_alpha_stall__dcl_flaps_model, alpha_stall]
  (apply hasDerivAt_of_eq; on_goal 1 => (repeat' comp_step))
  all_goals try comp_side
  all_goals try simp only [mul_zero, zero_mul, add_zero, zero_add, sub_zero, zero_sub, mul_one, one_mul]
  all_goals try push_cast
  all_goals comp_eq

theorem d_alpha_stall__kclge (lift_curve_slope wing_zero_lift_angle cl_max_flaps dcl_flaps_model
    kclge : ℝ) (h0 : 0 < kclge) (h1 : 0 < lift_curve_slope) :
    HasDerivAt (fun t => out_alpha_stall lift_curve_slope wing_zero_lift_angle cl_max_flaps dcl_flaps_model t) (J_alpha_stall__kclge lift_curve_slope cl_max_flaps dcl_flaps_model kclge) kclge := by
  simp only [out_alpha_stall, J_alpha_stall__kclge, alpha_stall]
  (apply hasDerivAt_of_eq; on_goal 1 => (repeat' comp_step))
  all_goals try comp_side
  all_goals try simp only [mul_zero, zero_mul, add_zero, zero_add, sub_zero, zero_sub, mul_one, one_mul]
  all_goals try push_cast
  all_goals comp_eq

theorem d_cl_max__cl_max_flaps (cl_max_flaps : ℝ)  :
    HasDerivAt (fun t => out_cl_max t) (J_cl_max__cl_max_flaps) cl_max_flaps := by
  simp only [out_cl_max, J_cl_max__cl_max_flaps]
  (apply hasDerivAt_of_eq; on_goal 1 => (repeat' comp_step))
  all_goals try comp_side
  all_goals try simp only [mul_zero, zero_mul, add_zero, zero_add, sub_zero, zero_sub, mul_one, one_mul]
  all_goals try push_cast
  all_goals comp_eq

theorem d_cl_full_flaps__vehicle_angle_of_attack (vehicle_angle_of_attack lift_curve_slope
    wing_zero_lift_angle dcl_flaps_model kclge body_lift_curve_slope wing_area wing_exposed_area
    fuselage_planform_area : ℝ) (h0 : 0 < wing_area) :
    HasDerivAt (fun t => out_cl_full_flaps t lift_curve_slope wing_zero_lift_angle dcl_flaps_model kclge body_lift_curve_slope wing_area wing_exposed_area fuselage_planform_area) (J_cl_full_flaps__vehicle_angle_of_attack lift_curve_slope kclge body_lift_curve_slope wing_area wing_exposed_area fuselage_planform_area) vehicle_angle_of_attack := by
  simp only [out_cl_full_flaps, J_cl_full_flaps__vehicle_angle_of_attack, dcl_body_dalpha, dclw_full_flaps_dalpha, cl_body, clw_full_flaps]
  (apply hasDerivAt_of_eq; on_goal 1 => (repeat' comp_step))
  all_goals try comp_side
  all_goals try simp only [mul_zero, zero_mul, add_zero, zero_add, sub_zero, zero_sub, mul_one, one_mul]
  all_goals try push_cast
  all_goals comp_eq

theorem d_cl_full_flaps__lift_curve_slope (vehicle_angle_of_attack lift_curve_slope
    wing_zero_lift_angle dcl_flaps_model kclge body_lift_curve_slope wing_area wing_exposed_area
    fuselage_planform_area : ℝ) (h0 : 0 < wing_area) :
    HasDerivAt (fun t => out_cl_full_flaps vehicle_angle_of_attack t wing_zero_lift_angle dcl_flaps_model kclge body_lift_curve_slope wing_area wing_exposed_area fuselage_planform_area) (J_cl_full_flaps__lift_curve_slope vehicle_angle_of_attack wing_zero_lift_angle kclge wing_area wing_exposed_area) lift_curve_slope := by
  simp only [out_cl_full_flaps, J_cl_full_flaps__lift_curve_slope, dclw_full_flaps_dlift_curve_slope, cl_body, clw_full_flaps]
  (apply hasDerivAt_of_eq; on_goal 1 => (repeat' comp_step))
  all_goals try comp_side
  all_goals try simp only [mul_zero, zero_mul, add_zero, zero_add, sub_zero, zero_sub, mul_one, one_mul]
  all_goals try push_cast
  all_goals comp_eq

theorem d_cl_full_flaps__wing_zero_lift_angle (vehicle_angle_of_attack lift_curve_slope
    wing_zero_lift_angle dcl_flaps_model kclge body_lift_curve_slope wing_area wing_exposed_area
    fuselage_planform_area : ℝ) (h0 : 0 < wing_area) :
    HasDerivAt (fun t => out_cl_full_flaps vehicle_angle_of_attack lift_curve_slope t dcl_flaps_model kclge body_lift_curve_slope wing_area wing_exposed_area fuselage_planform_area) (J_cl_full_flaps__wing_zero_lift_angle lift_curve_slope kclge body_lift_curve_slope wing_area wing_exposed_area fuselage_planform_area) wing_zero_lift_angle := by
  simp only [out_cl_full_flaps, J_cl_full_flaps__wing_zero_lift_angle, dcl_body_dalpha0, dclw_full_flaps_dalpha0, cl_body, clw_full_flaps]
  (apply hasDerivAt_of_eq; on_goal 1 => (repeat' comp_step))
  all_goals try comp_side
  all_goals try simp only [mul_zero, zero_mul, add_zero, zero_add, sub_zero, zero_sub, mul_one, one_mul]
  all_goals try push_cast
  all_goals comp_eq

theorem d_cl_full_flaps__dcl_flaps_model (vehicle_angle_of_attack lift_curve_slope
    wing_zero_lift_angle dcl_flaps_model kclge body_lift_curve_slope wing_area wing_exposed_area
    fuselage_planform_area : ℝ) (h0 : 0 < wing_area) :
    HasDerivAt (fun t => out_cl_full_flaps vehicle_angle_of_attack lift_curve_slope wing_zero_lift_angle t kclge body_lift_curve_slope wing_area wing_exposed_area fuselage_planform_area) (J_cl_full_flaps__dcl_flaps_model wing_area wing_exposed_area) dcl_flaps_model := by
  simp only [out_cl_full_flaps, J_cl_full_flaps__dcl_flaps_model, dclw_full_flaps_ddcl_flaps_model, cl_body, clw_full_flaps]
  (apply hasDerivAt_of_eq; on_goal 1 => (repeat' comp_step))
  all_goals try comp_side
  all_goals try simp only [mul_zero, zero_mul, add_zero, zero_add, sub_zero, zero_sub, mul_one, one_mul]
  all_goals try push_cast
  all_goals comp_eq

theorem d_cl_full_flaps__kclge (vehicle_angle_of_attack lift_curve_slope wing_zero_lift_angle
    dcl_flaps_model kclge body_lift_curve_slope wing_area wing_exposed_area fuselage_planform_area
    : ℝ) (h0 : 0 < wing_area) :
    HasDerivAt (fun t => out_cl_full_flaps vehicle_angle_of_attack lift_curve_slope wing_zero_lift_angle dcl_flaps_model t body_lift_curve_slope wing_area wing_exposed_area fuselage_planform_area) (J_cl_full_flaps__kclge vehicle_angle_of_attack lift_curve_slope wing_zero_lift_angle body_lift_curve_slope wing_area wing_exposed_area fuselage_planform_area) kclge := by
  simp only [out_cl_full_flaps, J_cl_full_flaps__kclge, dcl_body_dkclge, dclw_full_flaps_dkclge, cl_body, clw_full_flaps]
  (apply hasDerivAt_of_eq; on_goal 1 => (repeat' comp_step))
  all_goals try comp_side
  all_goals try simp only [mul_zero, zero_mul, add_zero, zero_add, sub_zero, zero_sub, mul_one, one_mul]
  all_goals try push_cast
  all_goals comp_eq

theorem d_cl_full_flaps__body_lift_curve_slope (vehicle_angle_of_attack lift_curve_slope
    wing_zero_lift_angle dcl_flaps_model kclge body_lift_curve_slope wing_area wing_exposed_area
    fuselage_planform_area : ℝ) (h0 : 0 < wing_area) :
    HasDerivAt (fun t => out_cl_full_flaps vehicle_angle_of_attack lift_curve_slope wing_zero_lift_angle dcl_flaps_model kclge t wing_area wing_exposed_area fuselage_planform_area) (J_cl_full_flaps__body_lift_curve_slope vehicle_angle_of_attack wing_zero_lift_angle kclge wing_area fuselage_planform_area) body_lift_curve_slope := by
  simp only [out_cl_full_flaps, J_cl_full_flaps__body_lift_curve_slope, dcl_body_dbody_lift_curve_slope, cl_body, clw_full_flaps]
  (apply hasDerivAt_of_eq; on_goal 1 => (repeat' comp_step))
  all_goals try comp_side
  all_goals try simp only [mul_zero, zero_mul, add_zero, zero_add, sub_zero, zero_sub, mul_one, one_mul]
  all_goals try push_cast
  all_goals comp_eq

theorem d_cl_full_flaps__wing_area (vehicle_angle_of_attack lift_curve_slope wing_zero_lift_angle
    dcl_flaps_model kclge body_lift_curve_slope wing_area wing_exposed_area fuselage_planform_area
    : ℝ) (h0 : 0 < wing_area) :
    HasDerivAt (fun t => out_cl_full_flaps vehicle_angle_of_attack lift_curve_slope wing_zero_lift_angle dcl_flaps_model kclge body_lift_curve_slope t wing_exposed_area fuselage_planform_area) (J_cl_full_flaps__wing_area vehicle_angle_of_attack lift_curve_slope wing_zero_lift_angle dcl_flaps_model kclge body_lift_curve_slope wing_area wing_exposed_area fuselage_planform_area) wing_area := by
  simp only [out_cl_full_flaps, J_cl_full_flaps__wing_area, dcl_body_dwing_area, clw_full_flaps_2, cl_base, cl_body, clw_full_flaps]
  (apply hasDerivAt_of_eq; on_goal 1 => (repeat' comp_step))
  all_goals try comp_side
  all_goals try simp only [mul_zero, zero_mul, add_zero, zero_add, sub_zero, zero_sub, mul_one, one_mul]
  all_goals try push_cast
  all_goals comp_eq

theorem d_cl_full_flaps__wing_exposed_area (vehicle_angle_of_attack lift_curve_slope
    wing_zero_lift_angle dcl_flaps_model kclge body_lift_curve_slope wing_area wing_exposed_area
    fuselage_planform_area : ℝ) (h0 : 0 < wing_area) :
    HasDerivAt (fun t => out_cl_full_flaps vehicle_angle_of_attack lift_curve_slope wing_zero_lift_angle dcl_flaps_model kclge body_lift_curve_slope wing_area t fuselage_planform_area) (J_cl_full_flaps__wing_exposed_area vehicle_angle_of_attack lift_curve_slope wing_zero_lift_angle dcl_flaps_model kclge wing_area) wing_exposed_area := by
  simp only [out_cl_full_flaps, J_cl_full_flaps__wing_exposed_area, clw_full_flaps_2, cl_base, cl_body, clw_full_flaps]
  (apply hasDerivAt_of_eq; on_goal 1 => (repeat' comp_step))
  all_goals try comp_side
  all_goals try simp only [mul_zero, zero_mul, add_zero, zero_add, sub_zero, zero_sub, mul_one, one_mul]
  all_goals try push_cast
  all_goals comp_eq

theorem d_cl_full_flaps__fuselage_planform_area (vehicle_angle_of_attack lift_curve_slope
    wing_zero_lift_angle dcl_flaps_model kclge body_lift_curve_slope wing_area wing_exposed_area
    fuselage_planform_area : ℝ) (h0 : 0 < wing_area) :
    HasDerivAt (fun t => out_cl_full_flaps vehicle_angle_of_attack lift_curve_slope wing_zero_lift_angle dcl_flaps_model kclge body_lift_curve_slope wing_area wing_exposed_area t) (J_cl_full_flaps__fuselage_planform_area vehicle_angle_of_attack wing_zero_lift_angle kclge body_lift_curve_slope wing_area) fuselage_planform_area := by
  simp only [out_cl_full_flaps, J_cl_full_flaps__fuselage_planform_area, dcl_body_dplanform, cl_body, clw_full_flaps]
  (apply hasDerivAt_of_eq; on_goal 1 => (repeat' comp_step))
  all_goals try comp_side
  all_goals try simp only [mul_zero, zero_mul, add_zero, zero_add, sub_zero, zero_sub, mul_one, one_mul]
  all_goals try push_cast
  all_goals comp_eq

theorem d_vehicle_lift_coefficient__vehicle_angle_of_attack (vehicle_angle_of_attack
    lift_curve_slope wing_zero_lift_angle dcl_flaps_model kclge flap_factor body_lift_curve_slope
    wing_area wing_exposed_area fuselage_planform_area : ℝ) (h0 : 0 < wing_area) :
    HasDerivAt (fun t => out_vehicle_lift_coefficient t lift_curve_slope wing_zero_lift_angle dcl_flaps_model kclge flap_factor body_lift_curve_slope wing_area wing_exposed_area fuselage_planform_area) (J_vehicle_lift_coefficient__vehicle_angle_of_attack lift_curve_slope kclge body_lift_curve_slope wing_area wing_exposed_area fuselage_planform_area) vehicle_angle_of_attack := by
  simp only [out_vehicle_lift_coefficient, J_vehicle_lift_coefficient__vehicle_angle_of_attack, dcl_body_dalpha, dclw_partial_flaps_dalpha, cl_body, clw_partial_flaps]
  (apply hasDerivAt_of_eq; on_goal 1 => (repeat' comp_step))
  all_goals try comp_side
  all_goals try simp only [mul_zero, zero_mul, add_zero, zero_add, sub_zero, zero_sub, mul_one, one_mul]
  all_goals try push_cast
  all_goals comp_eq

theorem d_vehicle_lift_coefficient__lift_curve_slope (vehicle_angle_of_attack lift_curve_slope
    wing_zero_lift_angle dcl_flaps_model kclge flap_factor body_lift_curve_slope wing_area
    wing_exposed_area fuselage_planform_area : ℝ) (h0 : 0 < wing_area) :
    HasDerivAt (fun t => out_vehicle_lift_coefficient vehicle_angle_of_attack t wing_zero_lift_angle dcl_flaps_model kclge flap_factor body_lift_curve_slope wing_area wing_exposed_area fuselage_planform_area) (J_vehicle_lift_coefficient__lift_curve_slope vehicle_angle_of_attack wing_zero_lift_angle kclge wing_area wing_exposed_area) lift_curve_slope := by
  simp only [out_vehicle_lift_coefficient, J_vehicle_lift_coefficient__lift_curve_slope, dclw_partial_flaps_dlift_curve_slope, cl_body, clw_partial_flaps]
  (apply hasDerivAt_of_eq; on_goal 1 => (repeat' comp_step))
  all_goals try comp_side
  all_goals try simp only [mul_zero, zero_mul, add_zero, zero_add, sub_zero, zero_sub, mul_one, one_mul]
  all_goals try push_cast
  all_goals comp_eq

theorem d_vehicle_lift_coefficient__wing_zero_lift_angle (vehicle_angle_of_attack lift_curve_slope
    wing_zero_lift_angle dcl_flaps_model kclge flap_factor body_lift_curve_slope wing_area
    wing_exposed_area fuselage_planform_area : ℝ) (h0 : 0 < wing_area) :
    HasDerivAt (fun t => out_vehicle_lift_coefficient vehicle_angle_of_attack lift_curve_slope t dcl_flaps_model kclge flap_factor body_lift_curve_slope wing_area wing_exposed_area fuselage_planform_area) (J_vehicle_lift_coefficient__wing_zero_lift_angle lift_curve_slope kclge body_lift_curve_slope wing_area wing_exposed_area fuselage_planform_area) wing_zero_lift_angle := by
  simp only [out_vehicle_lift_coefficient, J_vehicle_lift_coefficient__wing_zero_lift_angle, dcl_body_dalpha0, dclw_partial_flaps_dalpha0, cl_body, clw_partial_flaps]
  (apply hasDerivAt_of_eq; on_goal 1 => (repeat' comp_step))
  all_goals try comp_side
  all_goals try simp only [mul_zero, zero_mul, add_zero, zero_add, sub_zero, zero_sub, mul_one, one_mul]
  all_goals try push_cast
  all_goals comp_eq

theorem d_vehicle_lift_coefficient__dcl_flaps_model (vehicle_angle_of_attack lift_curve_slope
    wing_zero_lift_angle dcl_flaps_model kclge flap_factor body_lift_curve_slope wing_area
    wing_exposed_area fuselage_planform_area : ℝ) (h0 : 0 < wing_area) :
    HasDerivAt (fun t => out_vehicle_lift_coefficient vehicle_angle_of_attack lift_curve_slope wing_zero_lift_angle t kclge flap_factor body_lift_curve_slope wing_area wing_exposed_area fuselage_planform_area) (J_vehicle_lift_coefficient__dcl_flaps_model flap_factor wing_area wing_exposed_area) dcl_flaps_model := by
  simp only [out_vehicle_lift_coefficient, J_vehicle_lift_coefficient__dcl_flaps_model, dclw_partial_flaps_ddcl_flaps_model, cl_body, clw_partial_flaps]
  (apply hasDerivAt_of_eq; on_goal 1 => (repeat' comp_step))
  all_goals try comp_side
  all_goals try simp only [mul_zero, zero_mul, add_zero, zero_add, sub_zero, zero_sub, mul_one, one_mul]
  all_goals try push_cast
  all_goals comp_eq

theorem d_vehicle_lift_coefficient__kclge (vehicle_angle_of_attack lift_curve_slope
    wing_zero_lift_angle dcl_flaps_model kclge flap_factor body_lift_curve_slope wing_area
    wing_exposed_area fuselage_planform_area : ℝ) (h0 : 0 < wing_area) :
    HasDerivAt (fun t => out_vehicle_lift_coefficient vehicle_angle_of_attack lift_curve_slope wing_zero_lift_angle dcl_flaps_model t flap_factor body_lift_curve_slope wing_area wing_exposed_area fuselage_planform_area) (J_vehicle_lift_coefficient__kclge vehicle_angle_of_attack lift_curve_slope wing_zero_lift_angle body_lift_curve_slope wing_area wing_exposed_area fuselage_planform_area) kclge := by
  simp only [out_vehicle_lift_coefficient, J_vehicle_lift_coefficient__kclge, dcl_body_dkclge, dclw_partial_flaps_dkclge, cl_body, clw_partial_flaps]
  (apply hasDerivAt_of_eq; on_goal 1 => (repeat' comp_step))
  all_goals try comp_side
  all_goals try simp only [mul_zero, zero_mul, add_zero, zero_add, sub_zero, zero_sub, mul_one, one_mul]
  all_goals try push_cast
  all_goals comp_eq

theorem d_vehicle_lift_coefficient__flap_factor (vehicle_angle_of_attack lift_curve_slope
    wing_zero_lift_angle dcl_flaps_model kclge flap_factor body_lift_curve_slope wing_area
    wing_exposed_area fuselage_planform_area : ℝ) (h0 : 0 < wing_area) :
    HasDerivAt (fun t => out_vehicle_lift_coefficient vehicle_angle_of_attack lift_curve_slope wing_zero_lift_angle dcl_flaps_model kclge t body_lift_curve_slope wing_area wing_exposed_area fuselage_planform_area) (J_vehicle_lift_coefficient__flap_factor dcl_flaps_model wing_area wing_exposed_area) flap_factor := by
  simp only [out_vehicle_lift_coefficient, J_vehicle_lift_coefficient__flap_factor, dclw_partial_flaps_dflap_factor, cl_body, clw_partial_flaps]
  (apply hasDerivAt_of_eq; on_goal 1 => (repeat' comp_step))
  all_goals try comp_side
  all_goals try simp only [mul_zero, zero_mul, add_zero, zero_add, sub_zero, zero_sub, mul_one, one_mul]
  all_goals try push_cast
  all_goals comp_eq

theorem d_vehicle_lift_coefficient__body_lift_curve_slope (vehicle_angle_of_attack
    lift_curve_slope wing_zero_lift_angle dcl_flaps_model kclge flap_factor body_lift_curve_slope
    wing_area wing_exposed_area fuselage_planform_area : ℝ) (h0 : 0 < wing_area) :
    HasDerivAt (fun t => out_vehicle_lift_coefficient vehicle_angle_of_attack lift_curve_slope wing_zero_lift_angle dcl_flaps_model kclge flap_factor t wing_area wing_exposed_area fuselage_planform_area) (J_vehicle_lift_coefficient__body_lift_curve_slope vehicle_angle_of_attack wing_zero_lift_angle kclge wing_area fuselage_planform_area) body_lift_curve_slope := by
  simp only [out_vehicle_lift_coefficient, J_vehicle_lift_coefficient__body_lift_curve_slope, dcl_body_dbody_lift_curve_slope, cl_body, clw_partial_flaps]
  (apply hasDerivAt_of_eq; on_goal 1 => (repeat' comp_step))
  all_goals try comp_side
  all_goals try simp only [mul_zero, zero_mul, add_zero, zero_add, sub_zero, zero_sub, mul_one, one_mul]
  all_goals try push_cast
  all_goals comp_eq

theorem d_vehicle_lift_coefficient__wing_area (vehicle_angle_of_attack lift_curve_slope
    wing_zero_lift_angle dcl_flaps_model kclge flap_factor body_lift_curve_slope wing_area
    wing_exposed_area fuselage_planform_area : ℝ) (h0 : 0 < wing_area) :
    HasDerivAt (fun t => out_vehicle_lift_coefficient vehicle_angle_of_attack lift_curve_slope wing_zero_lift_angle dcl_flaps_model kclge flap_factor body_lift_curve_slope t wing_exposed_area fuselage_planform_area) (J_vehicle_lift_coefficient__wing_area vehicle_angle_of_attack lift_curve_slope wing_zero_lift_angle dcl_flaps_model kclge flap_factor body_lift_curve_slope wing_area wing_exposed_area fuselage_planform_area) wing_area := by
  simp only [out_vehicle_lift_coefficient, J_vehicle_lift_coefficient__wing_area, dcl_body_dwing_area, clw_partial_flaps_2, dclw_partial_flaps, cl_base, cl_body, clw_partial_flaps]
  (apply hasDerivAt_of_eq; on_goal 1 => (repeat' comp_step))
  all_goals try comp_side
  all_goals try simp only [mul_zero, zero_mul, add_zero, zero_add, sub_zero, zero_sub, mul_one, one_mul]
  all_goals try push_cast
  all_goals comp_eq

theorem d_vehicle_lift_coefficient__wing_exposed_area (vehicle_angle_of_attack lift_curve_slope
    wing_zero_lift_angle dcl_flaps_model kclge flap_factor body_lift_curve_slope wing_area
    wing_exposed_area fuselage_planform_area : ℝ) (h0 : 0 < wing_area) :
    HasDerivAt (fun t => out_vehicle_lift_coefficient vehicle_angle_of_attack lift_curve_slope wing_zero_lift_angle dcl_flaps_model kclge flap_factor body_lift_curve_slope wing_area t fuselage_planform_area) (J_vehicle_lift_coefficient__wing_exposed_area vehicle_angle_of_attack lift_curve_slope wing_zero_lift_angle dcl_flaps_model kclge flap_factor wing_area) wing_exposed_area := by
  simp only [out_vehicle_lift_coefficient, J_vehicle_lift_coefficient__wing_exposed_area, clw_partial_flaps_2, dclw_partial_flaps, cl_base, cl_body, clw_partial_flaps]
  (apply hasDerivAt_of_eq; on_goal 1 => (repeat' comp_step))
  all_goals try comp_side
  all_goals try simp only [mul_zero, zero_mul, add_zero, zero_add, sub_zero, zero_sub, mul_one, one_mul]
  all_goals try push_cast
  all_goals comp_eq

theorem d_vehicle_lift_coefficient__fuselage_planform_area (vehicle_angle_of_attack
    lift_curve_slope wing_zero_lift_angle dcl_flaps_model kclge flap_factor body_lift_curve_slope
    wing_area wing_exposed_area fuselage_planform_area : ℝ) (h0 : 0 < wing_area) :
    HasDerivAt (fun t => out_vehicle_lift_coefficient vehicle_angle_of_attack lift_curve_slope wing_zero_lift_angle dcl_flaps_model kclge flap_factor body_lift_curve_slope wing_area wing_exposed_area t) (J_vehicle_lift_coefficient__fuselage_planform_area vehicle_angle_of_attack wing_zero_lift_angle kclge body_lift_curve_slope wing_area) fuselage_planform_area := by
  simp only [out_vehicle_lift_coefficient, J_vehicle_lift_coefficient__fuselage_planform_area, dcl_body_dplanform, cl_body, clw_partial_flaps]
  (apply hasDerivAt_of_eq; on_goal 1 => (repeat' comp_step))
  all_goals try comp_side
  all_goals try simp only [mul_zero, zero_mul, add_zero, zero_add, sub_zero, zero_sub, mul_one, one_mul]
  all_goals try push_cast
  all_goals comp_eq

/-- Every partial derivative set by `BWBLiftCoeff` is the derivative of its output. -/
theorem partials (vehicle_angle_of_attack lift_curve_slope wing_zero_lift_angle cl_max_flaps
    dcl_flaps_model kclge flap_factor body_lift_curve_slope wing_area wing_exposed_area
    fuselage_planform_area : ℝ) (h0 : 0 < kclge) (h1 : 0 < lift_curve_slope) (h2 : 0 < wing_area)
    :
    HasDerivAt (fun t => out_cl_base t lift_curve_slope wing_zero_lift_angle kclge)
      (J_cl_base__vehicle_angle_of_attack lift_curve_slope kclge) vehicle_angle_of_attack ∧
    HasDerivAt (fun t => out_cl_base vehicle_angle_of_attack t wing_zero_lift_angle kclge)
      (J_cl_base__lift_curve_slope vehicle_angle_of_attack wing_zero_lift_angle kclge)
      lift_curve_slope ∧
    HasDerivAt (fun t => out_cl_base vehicle_angle_of_attack lift_curve_slope t kclge)
      (J_cl_base__wing_zero_lift_angle lift_curve_slope kclge) wing_zero_lift_angle ∧
    HasDerivAt (fun t => out_cl_base vehicle_angle_of_attack lift_curve_slope wing_zero_lift_angle t)
      (J_cl_base__kclge vehicle_angle_of_attack lift_curve_slope wing_zero_lift_angle) kclge ∧
    HasDerivAt (fun t => out_dcl_flaps_full t) (J_dcl_flaps_full__dcl_flaps_model) dcl_flaps_model ∧
    HasDerivAt (fun t => out_alpha_stall t wing_zero_lift_angle cl_max_flaps dcl_flaps_model kclge)
      (J_alpha_stall__lift_curve_slope lift_curve_slope cl_max_flaps dcl_flaps_model kclge)
      lift_curve_slope ∧
    HasDerivAt (fun t => out_alpha_stall lift_curve_slope t cl_max_flaps dcl_flaps_model kclge)
      (J_alpha_stall__wing_zero_lift_angle) wing_zero_lift_angle ∧
    HasDerivAt (fun t => out_alpha_stall lift_curve_slope wing_zero_lift_angle t dcl_flaps_model
      kclge) (J_alpha_stall__cl_max_flaps lift_curve_slope kclge) cl_max_flaps ∧
    HasDerivAt (fun t => out_alpha_stall lift_curve_slope wing_zero_lift_angle cl_max_flaps t kclge)
      (J_alpha_stall__dcl_flaps_model lift_curve_slope kclge) dcl_flaps_model ∧
    HasDerivAt (fun t => out_alpha_stall lift_curve_slope wing_zero_lift_angle cl_max_flaps
      dcl_flaps_model t) (J_alpha_stall__kclge lift_curve_slope cl_max_flaps dcl_flaps_model
      kclge) kclge ∧
    HasDerivAt (fun t => out_cl_max t) (J_cl_max__cl_max_flaps) cl_max_flaps ∧
    HasDerivAt (fun t => out_cl_full_flaps t lift_curve_slope wing_zero_lift_angle dcl_flaps_model
      kclge body_lift_curve_slope wing_area wing_exposed_area fuselage_planform_area)
      (J_cl_full_flaps__vehicle_angle_of_attack lift_curve_slope kclge body_lift_curve_slope
      wing_area wing_exposed_area fuselage_planform_area) vehicle_angle_of_attack ∧
    HasDerivAt (fun t => out_cl_full_flaps vehicle_angle_of_attack t wing_zero_lift_angle
      dcl_flaps_model kclge body_lift_curve_slope wing_area wing_exposed_area
      fuselage_planform_area) (J_cl_full_flaps__lift_curve_slope vehicle_angle_of_attack
      wing_zero_lift_angle kclge wing_area wing_exposed_area) lift_curve_slope ∧
    HasDerivAt (fun t => out_cl_full_flaps vehicle_angle_of_attack lift_curve_slope t dcl_flaps_model
      kclge body_lift_curve_slope wing_area wing_exposed_area fuselage_planform_area)
      (J_cl_full_flaps__wing_zero_lift_angle lift_curve_slope kclge body_lift_curve_slope
      wing_area wing_exposed_area fuselage_planform_area) wing_zero_lift_angle ∧
    HasDerivAt (fun t => out_cl_full_flaps vehicle_angle_of_attack lift_curve_slope
      wing_zero_lift_angle t kclge body_lift_curve_slope wing_area wing_exposed_area
      fuselage_planform_area) (J_cl_full_flaps__dcl_flaps_model wing_area wing_exposed_area)
      dcl_flaps_model ∧
    HasDerivAt (fun t => out_cl_full_flaps vehicle_angle_of_attack lift_curve_slope
      wing_zero_lift_angle dcl_flaps_model t body_lift_curve_slope wing_area wing_exposed_area
      fuselage_planform_area) (J_cl_full_flaps__kclge vehicle_angle_of_attack lift_curve_slope
      wing_zero_lift_angle body_lift_curve_slope wing_area wing_exposed_area
      fuselage_planform_area) kclge ∧
    HasDerivAt (fun t => out_cl_full_flaps vehicle_angle_of_attack lift_curve_slope
      wing_zero_lift_angle dcl_flaps_model kclge t wing_area wing_exposed_area
      fuselage_planform_area) (J_cl_full_flaps__body_lift_curve_slope vehicle_angle_of_attack
      wing_zero_lift_angle kclge wing_area fuselage_planform_area) body_lift_curve_slope ∧
    HasDerivAt (fun t => out_cl_full_flaps vehicle_angle_of_attack lift_curve_slope
      wing_zero_lift_angle dcl_flaps_model kclge body_lift_curve_slope t wing_exposed_area
      fuselage_planform_area) (J_cl_full_flaps__wing_area vehicle_angle_of_attack lift_curve_slope
      wing_zero_lift_angle dcl_flaps_model kclge body_lift_curve_slope wing_area wing_exposed_area
      fuselage_planform_area) wing_area ∧
    HasDerivAt (fun t => out_cl_full_flaps vehicle_angle_of_attack lift_curve_slope
      wing_zero_lift_angle dcl_flaps_model kclge body_lift_curve_slope wing_area t
      fuselage_planform_area) (J_cl_full_flaps__wing_exposed_area vehicle_angle_of_attack
      lift_curve_slope wing_zero_lift_angle dcl_flaps_model kclge wing_area) wing_exposed_area ∧
    HasDerivAt (fun t => out_cl_full_flaps vehicle_angle_of_attack lift_curve_slope
      wing_zero_lift_angle dcl_flaps_model kclge body_lift_curve_slope wing_area wing_exposed_area
      t) (J_cl_full_flaps__fuselage_planform_area vehicle_angle_of_attack wing_zero_lift_angle
      kclge body_lift_curve_slope wing_area) fuselage_planform_area ∧
    HasDerivAt (fun t => out_vehicle_lift_coefficient t lift_curve_slope wing_zero_lift_angle
      dcl_flaps_model kclge flap_factor body_lift_curve_slope wing_area wing_exposed_area
      fuselage_planform_area) (J_vehicle_lift_coefficient__vehicle_angle_of_attack
      lift_curve_slope kclge body_lift_curve_slope wing_area wing_exposed_area
      fuselage_planform_area) vehicle_angle_of_attack ∧
    HasDerivAt (fun t => out_vehicle_lift_coefficient vehicle_angle_of_attack t wing_zero_lift_angle
      dcl_flaps_model kclge flap_factor body_lift_curve_slope wing_area wing_exposed_area
      fuselage_planform_area) (J_vehicle_lift_coefficient__lift_curve_slope
      vehicle_angle_of_attack wing_zero_lift_angle kclge wing_area wing_exposed_area)
      lift_curve_slope ∧
    HasDerivAt (fun t => out_vehicle_lift_coefficient vehicle_angle_of_attack lift_curve_slope t
      dcl_flaps_model kclge flap_factor body_lift_curve_slope wing_area wing_exposed_area
      fuselage_planform_area) (J_vehicle_lift_coefficient__wing_zero_lift_angle lift_curve_slope
      kclge body_lift_curve_slope wing_area wing_exposed_area fuselage_planform_area)
      wing_zero_lift_angle ∧
    HasDerivAt (fun t => out_vehicle_lift_coefficient vehicle_angle_of_attack lift_curve_slope
      wing_zero_lift_angle t kclge flap_factor body_lift_curve_slope wing_area wing_exposed_area
      fuselage_planform_area) (J_vehicle_lift_coefficient__dcl_flaps_model flap_factor wing_area
      wing_exposed_area) dcl_flaps_model ∧
    HasDerivAt (fun t => out_vehicle_lift_coefficient vehicle_angle_of_attack lift_curve_slope
      wing_zero_lift_angle dcl_flaps_model t flap_factor body_lift_curve_slope wing_area
      wing_exposed_area fuselage_planform_area) (J_vehicle_lift_coefficient__kclge
      vehicle_angle_of_attack lift_curve_slope wing_zero_lift_angle body_lift_curve_slope
      wing_area wing_exposed_area fuselage_planform_area) kclge ∧
    HasDerivAt (fun t => out_vehicle_lift_coefficient vehicle_angle_of_attack lift_curve_slope
      wing_zero_lift_angle dcl_flaps_model kclge t body_lift_curve_slope wing_area
      wing_exposed_area fuselage_planform_area) (J_vehicle_lift_coefficient__flap_factor
      dcl_flaps_model wing_area wing_exposed_area) flap_factor ∧
    HasDerivAt (fun t => out_vehicle_lift_coefficient vehicle_angle_of_attack lift_curve_slope
      wing_zero_lift_angle dcl_flaps_model kclge flap_factor t wing_area wing_exposed_area
      fuselage_planform_area) (J_vehicle_lift_coefficient__body_lift_curve_slope
      vehicle_angle_of_attack wing_zero_lift_angle kclge wing_area fuselage_planform_area)
      body_lift_curve_slope ∧
    HasDerivAt (fun t => out_vehicle_lift_coefficient vehicle_angle_of_attack lift_curve_slope
      wing_zero_lift_angle dcl_flaps_model kclge flap_factor body_lift_curve_slope t
      wing_exposed_area fuselage_planform_area) (J_vehicle_lift_coefficient__wing_area
      vehicle_angle_of_attack lift_curve_slope wing_zero_lift_angle dcl_flaps_model kclge
      flap_factor body_lift_curve_slope wing_area wing_exposed_area fuselage_planform_area)
      wing_area ∧
    HasDerivAt (fun t => out_vehicle_lift_coefficient vehicle_angle_of_attack lift_curve_slope
      wing_zero_lift_angle dcl_flaps_model kclge flap_factor body_lift_curve_slope wing_area t
      fuselage_planform_area) (J_vehicle_lift_coefficient__wing_exposed_area
      vehicle_angle_of_attack lift_curve_slope wing_zero_lift_angle dcl_flaps_model kclge
      flap_factor wing_area) wing_exposed_area ∧
    HasDerivAt (fun t => out_vehicle_lift_coefficient vehicle_angle_of_attack lift_curve_slope
      wing_zero_lift_angle dcl_flaps_model kclge flap_factor body_lift_curve_slope wing_area
      wing_exposed_area t) (J_vehicle_lift_coefficient__fuselage_planform_area
      vehicle_angle_of_attack wing_zero_lift_angle kclge body_lift_curve_slope wing_area)
      fuselage_planform_area :=
  ⟨d_cl_base__vehicle_angle_of_attack _ _ _ _, d_cl_base__lift_curve_slope _ _ _ _,
    d_cl_base__wing_zero_lift_angle _ _ _ _, d_cl_base__kclge _ _ _ _,
    d_dcl_flaps_full__dcl_flaps_model _, d_alpha_stall__lift_curve_slope _ _ _ _ _ h0 h1,
    d_alpha_stall__wing_zero_lift_angle _ _ _ _ _ h0 h1, d_alpha_stall__cl_max_flaps _ _ _ _ _ h0
    h1, d_alpha_stall__dcl_flaps_model _ _ _ _ _ h0 h1, d_alpha_stall__kclge _ _ _ _ _ h0 h1,
    d_cl_max__cl_max_flaps _, d_cl_full_flaps__vehicle_angle_of_attack _ _ _ _ _ _ _ _ _ h2,
    d_cl_full_flaps__lift_curve_slope _ _ _ _ _ _ _ _ _ h2, d_cl_full_flaps__wing_zero_lift_angle
    _ _ _ _ _ _ _ _ _ h2, d_cl_full_flaps__dcl_flaps_model _ _ _ _ _ _ _ _ _ h2,
    d_cl_full_flaps__kclge _ _ _ _ _ _ _ _ _ h2, d_cl_full_flaps__body_lift_curve_slope _ _ _ _ _
    _ _ _ _ h2, d_cl_full_flaps__wing_area _ _ _ _ _ _ _ _ _ h2,
    d_cl_full_flaps__wing_exposed_area _ _ _ _ _ _ _ _ _ h2,
    d_cl_full_flaps__fuselage_planform_area _ _ _ _ _ _ _ _ _ h2,
    d_vehicle_lift_coefficient__vehicle_angle_of_attack _ _ _ _ _ _ _ _ _ _ h2,
    d_vehicle_lift_coefficient__lift_curve_slope _ _ _ _ _ _ _ _ _ _ h2,
    d_vehicle_lift_coefficient__wing_zero_lift_angle _ _ _ _ _ _ _ _ _ _ h2,
    d_vehicle_lift_coefficient__dcl_flaps_model _ _ _ _ _ _ _ _ _ _ h2,
    d_vehicle_lift_coefficient__kclge _ _ _ _ _ _ _ _ _ _ h2,
    d_vehicle_lift_coefficient__flap_factor _ _ _ _ _ _ _ _ _ _ h2,
    d_vehicle_lift_coefficient__body_lift_curve_slope _ _ _ _ _ _ _ _ _ _ h2,
    d_vehicle_lift_coefficient__wing_area _ _ _ _ _ _ _ _ _ _ h2,
    d_vehicle_lift_coefficient__wing_exposed_area _ _ _ _ _ _ _ _ _ _ h2,
    d_vehicle_lift_coefficient__fuselage_planform_area _ _ _ _ _ _ _ _ _ _ h2⟩

example : ∃ vehicle_angle_of_attack lift_curve_slope wing_zero_lift_angle cl_max_flaps
      dcl_flaps_model kclge flap_factor body_lift_curve_slope wing_area wing_exposed_area
      fuselage_planform_area : ℝ,
      0 < kclge ∧
      0 < lift_curve_slope ∧
      0 < wing_area :=
  ⟨0, 1, 0, 0, 0, 1, 0, 0, 1, 0, 0, by comp_example, by comp_example, by comp_example⟩

end Verif.Comp.AerodynamicsGaspBasedGaspaero.BWBLiftCoeff

