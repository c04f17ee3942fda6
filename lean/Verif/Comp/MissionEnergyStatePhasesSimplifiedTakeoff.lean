import Verif.Lemmas.CompDeriv

/-! # Partial derivatives of the components of `aviary/mission/energy_state/phases/simplified_takeoff.py`

One node of a vector component is modelled over the real numbers.  Each option that selects a
branch is fixed, one namespace per choice.  `out_x` is the output `x`, `J_x__y` the entry that
`compute_partials` (or `declare_partials` with `val`) assigns, `d_x__y` the proof that the entry is
the derivative.  Inputs an output does not take as argument have no influence on it. -/

set_option linter.all false

namespace Verif.Comp.MissionEnergyStatePhasesSimplifiedTakeoff.FinalTakeoffConditions
open Real

/-- aviary/mission/energy_state/phases/simplified_takeoff.py:149 -/
noncomputable def climbout_thrust (propulsion_total_scaled_sls_thrust takeoff_climbout_thrust_fraction : ℝ) : ℝ :=
  propulsion_total_scaled_sls_thrust * takeoff_climbout_thrust_fraction

/-- aviary/mission/energy_state/phases/simplified_takeoff.py:151 -/
noncomputable def rho_ratio (sea_level_density atmosphere_density : ℝ) : ℝ :=
  atmosphere_density / sea_level_density

/-- aviary/mission/energy_state/phases/simplified_takeoff.py:155 -/
noncomputable def rolling_distance (mass wing_area takeoff_lift_coefficient_max propulsion_total_scaled_sls_thrust takeoff_lift_over_drag : ℝ) : ℝ :=
  (17 * mass) / ((wing_area * takeoff_lift_coefficient_max) *
    ((propulsion_total_scaled_sls_thrust / mass) - (((1 / 5) + (((11 / 2000) * mass) /
    wing_area)) / takeoff_lift_over_drag)))

/-- aviary/mission/energy_state/phases/simplified_takeoff.py:161 -/
noncomputable def rotation_distance (sea_level_density mass atmosphere_density wing_area takeoff_lift_coefficient_max : ℝ) : ℝ :=
  140 * ((mass / ((wing_area * takeoff_lift_coefficient_max) * (rho_ratio sea_level_density
    atmosphere_density))) ^ ((1 / 2) : ℝ))

/-- aviary/mission/energy_state/phases/simplified_takeoff.py:166 -/
noncomputable def climbout_distance (mass wing_area propulsion_total_scaled_sls_thrust takeoff_climbout_thrust_fraction takeoff_lift_over_drag : ℝ) : ℝ :=
  (140 * ((mass / wing_area) ^ ((1 / 2) : ℝ))) / ((1 + ((climbout_thrust
    propulsion_total_scaled_sls_thrust takeoff_climbout_thrust_fraction) / mass)) - ((9 / 10) /
    takeoff_lift_over_drag))

/-- aviary/mission/energy_state/phases/simplified_takeoff.py:174 -/
noncomputable def v2 (v_stall : ℝ) : ℝ := v_stall * (12309 / 10000)

/-- aviary/mission/energy_state/phases/simplified_takeoff.py:196 -/
noncomputable def den_rd (mass wing_area takeoff_lift_coefficient_max propulsion_total_scaled_sls_thrust takeoff_lift_over_drag : ℝ) : ℝ :=
  (wing_area * takeoff_lift_coefficient_max) * ((propulsion_total_scaled_sls_thrust / mass) -
    (((1 / 5) + (((11 / 2000) * mass) / wing_area)) / takeoff_lift_over_drag))

/-- aviary/mission/energy_state/phases/simplified_takeoff.py:197 -/
noncomputable def rad_rot (sea_level_density mass atmosphere_density wing_area takeoff_lift_coefficient_max : ℝ) : ℝ :=
  mass / ((wing_area * takeoff_lift_coefficient_max) * (rho_ratio sea_level_density
    atmosphere_density))

/-- aviary/mission/energy_state/phases/simplified_takeoff.py:198 -/
noncomputable def den_cout (mass propulsion_total_scaled_sls_thrust takeoff_climbout_thrust_fraction takeoff_lift_over_drag : ℝ) : ℝ :=
  (1 + ((climbout_thrust propulsion_total_scaled_sls_thrust takeoff_climbout_thrust_fraction) /
    mass)) - ((9 / 10) / takeoff_lift_over_drag)

/-- aviary/mission/energy_state/phases/simplified_takeoff.py:200 -/
noncomputable def drd_dm (mass wing_area takeoff_lift_coefficient_max propulsion_total_scaled_sls_thrust takeoff_lift_over_drag : ℝ) : ℝ :=
  (17 / (den_rd mass wing_area takeoff_lift_coefficient_max propulsion_total_scaled_sls_thrust
    takeoff_lift_over_drag)) - (((((17 * mass) / ((den_rd mass wing_area
    takeoff_lift_coefficient_max propulsion_total_scaled_sls_thrust takeoff_lift_over_drag) ^
    2)) * wing_area) * takeoff_lift_coefficient_max) * (((-propulsion_total_scaled_sls_thrust) /
    (mass ^ 2)) - (((11 / 2000) / wing_area) / takeoff_lift_over_drag)))

/-- aviary/mission/energy_state/phases/simplified_takeoff.py:209 -/
noncomputable def drd_ds (mass wing_area takeoff_lift_coefficient_max propulsion_total_scaled_sls_thrust takeoff_lift_over_drag : ℝ) : ℝ :=
  (((den_rd mass wing_area takeoff_lift_coefficient_max propulsion_total_scaled_sls_thrust
    takeoff_lift_over_drag) * 0) - ((17 * mass) * ((takeoff_lift_coefficient_max *
    ((propulsion_total_scaled_sls_thrust / mass) - (((1 / 5) + (((11 / 2000) * mass) /
    wing_area)) / takeoff_lift_over_drag))) + ((wing_area * takeoff_lift_coefficient_max) *
    ((((11 / 2000) * mass) / (wing_area ^ 2)) / takeoff_lift_over_drag))))) / ((den_rd mass
    wing_area takeoff_lift_coefficient_max propulsion_total_scaled_sls_thrust
    takeoff_lift_over_drag) ^ 2)

/-- aviary/mission/energy_state/phases/simplified_takeoff.py:218 -/
noncomputable def drd_dclmax (mass wing_area takeoff_lift_coefficient_max propulsion_total_scaled_sls_thrust takeoff_lift_over_drag : ℝ) : ℝ :=
  (((-17) * mass) / ((den_rd mass wing_area takeoff_lift_coefficient_max
    propulsion_total_scaled_sls_thrust takeoff_lift_over_drag) ^ 2)) * (wing_area *
    ((propulsion_total_scaled_sls_thrust / mass) - (((1 / 5) + (((11 / 2000) * mass) /
    wing_area)) / takeoff_lift_over_drag)))

/-- aviary/mission/energy_state/phases/simplified_takeoff.py:224 -/
noncomputable def drd_dthrust (mass wing_area takeoff_lift_coefficient_max propulsion_total_scaled_sls_thrust takeoff_lift_over_drag : ℝ) : ℝ :=
  (((((-17) * mass) / (((wing_area * takeoff_lift_coefficient_max) *
    ((propulsion_total_scaled_sls_thrust / mass) - (((1 / 5) + (((11 / 2000) * mass) /
    wing_area)) / takeoff_lift_over_drag))) ^ 2)) * wing_area) * takeoff_lift_coefficient_max) /
    mass

/-- aviary/mission/energy_state/phases/simplified_takeoff.py:233 -/
noncomputable def drd_dlod (mass wing_area takeoff_lift_coefficient_max propulsion_total_scaled_sls_thrust takeoff_lift_over_drag : ℝ) : ℝ :=
  ((((((-17) * mass) / (((wing_area * takeoff_lift_coefficient_max) *
    ((propulsion_total_scaled_sls_thrust / mass) - (((1 / 5) + (((11 / 2000) * mass) /
    wing_area)) / takeoff_lift_over_drag))) ^ 2)) * wing_area) * takeoff_lift_coefficient_max) *
    ((1 / 5) + (((11 / 2000) * mass) / wing_area))) / (takeoff_lift_over_drag ^ 2)

/-- aviary/mission/energy_state/phases/simplified_takeoff.py:245 -/
noncomputable def drot_dm (sea_level_density mass atmosphere_density wing_area takeoff_lift_coefficient_max : ℝ) : ℝ :=
  (70 * ((rad_rot sea_level_density mass atmosphere_density wing_area
    takeoff_lift_coefficient_max) ^ ((-(1 / 2)) : ℝ))) / ((wing_area *
    takeoff_lift_coefficient_max) * (rho_ratio sea_level_density atmosphere_density))

/-- aviary/mission/energy_state/phases/simplified_takeoff.py:246 -/
noncomputable def drot_ds (sea_level_density mass atmosphere_density wing_area takeoff_lift_coefficient_max : ℝ) : ℝ :=
  (70 * ((rad_rot sea_level_density mass atmosphere_density wing_area
    takeoff_lift_coefficient_max) ^ ((-(1 / 2)) : ℝ))) * ((-mass) / (((wing_area ^ 2) *
    takeoff_lift_coefficient_max) * (rho_ratio sea_level_density atmosphere_density)))

/-- aviary/mission/energy_state/phases/simplified_takeoff.py:247 -/
noncomputable def drot_dclmax (sea_level_density mass atmosphere_density wing_area takeoff_lift_coefficient_max : ℝ) : ℝ :=
  (70 * ((rad_rot sea_level_density mass atmosphere_density wing_area
    takeoff_lift_coefficient_max) ^ ((-(1 / 2)) : ℝ))) * ((-mass) / ((wing_area *
    (takeoff_lift_coefficient_max ^ 2)) * (rho_ratio sea_level_density atmosphere_density)))

/-- aviary/mission/energy_state/phases/simplified_takeoff.py:250 -/
noncomputable def drot_drho (sea_level_density mass atmosphere_density wing_area takeoff_lift_coefficient_max : ℝ) : ℝ :=
  (70 * ((rad_rot sea_level_density mass atmosphere_density wing_area
    takeoff_lift_coefficient_max) ^ ((-(1 / 2)) : ℝ))) * ((-mass) / (((wing_area *
    takeoff_lift_coefficient_max) * (atmosphere_density ^ 2)) / sea_level_density))

/-- aviary/mission/energy_state/phases/simplified_takeoff.py:252 -/
noncomputable def dcout_dm (mass wing_area propulsion_total_scaled_sls_thrust takeoff_climbout_thrust_fraction takeoff_lift_over_drag : ℝ) : ℝ :=
  (((70 * ((mass / wing_area) ^ ((-(1 / 2)) : ℝ))) / wing_area) / (den_cout mass
    propulsion_total_scaled_sls_thrust takeoff_climbout_thrust_fraction takeoff_lift_over_drag))
    - (((140 * ((mass / wing_area) ^ ((1 / 2) : ℝ))) / ((den_cout mass
    propulsion_total_scaled_sls_thrust takeoff_climbout_thrust_fraction takeoff_lift_over_drag)
    ^ 2)) * ((-(climbout_thrust propulsion_total_scaled_sls_thrust
    takeoff_climbout_thrust_fraction)) / (mass ^ 2)))

/-- aviary/mission/energy_state/phases/simplified_takeoff.py:256 -/
noncomputable def dcout_ds (mass wing_area propulsion_total_scaled_sls_thrust takeoff_climbout_thrust_fraction takeoff_lift_over_drag : ℝ) : ℝ :=
  (((70 * ((mass / wing_area) ^ ((-(1 / 2)) : ℝ))) * (-mass)) / (wing_area ^ 2)) / (den_cout
    mass propulsion_total_scaled_sls_thrust takeoff_climbout_thrust_fraction
    takeoff_lift_over_drag)

/-- aviary/mission/energy_state/phases/simplified_takeoff.py:258 -/
noncomputable def dcout_dthrust (mass wing_area propulsion_total_scaled_sls_thrust takeoff_climbout_thrust_fraction takeoff_lift_over_drag : ℝ) : ℝ :=
  (((-140) * ((mass / wing_area) ^ ((1 / 2) : ℝ))) / ((den_cout mass
    propulsion_total_scaled_sls_thrust takeoff_climbout_thrust_fraction takeoff_lift_over_drag)
    ^ 2)) * (takeoff_climbout_thrust_fraction / mass)

/-- aviary/mission/energy_state/phases/simplified_takeoff.py:261 -/
noncomputable def dcout_dthrustfrac (mass wing_area propulsion_total_scaled_sls_thrust takeoff_climbout_thrust_fraction takeoff_lift_over_drag : ℝ) : ℝ :=
  (((-140) * ((mass / wing_area) ^ ((1 / 2) : ℝ))) / ((den_cout mass
    propulsion_total_scaled_sls_thrust takeoff_climbout_thrust_fraction takeoff_lift_over_drag)
    ^ 2)) * (propulsion_total_scaled_sls_thrust / mass)

/-- aviary/mission/energy_state/phases/simplified_takeoff.py:262 -/
noncomputable def dcout_dlod (mass wing_area propulsion_total_scaled_sls_thrust takeoff_climbout_thrust_fraction takeoff_lift_over_drag : ℝ) : ℝ :=
  ((((-140) * ((mass / wing_area) ^ ((1 / 2) : ℝ))) / ((den_cout mass
    propulsion_total_scaled_sls_thrust takeoff_climbout_thrust_fraction takeoff_lift_over_drag)
    ^ 2)) * (9 / 10)) / (takeoff_lift_over_drag ^ 2)

/-- Output `takeoff_ground_distance` of `FinalTakeoffConditions.compute`, aviary/mission/energy_state/phases/simplified_takeoff.py:176 -/
noncomputable def out_takeoff_ground_distance (sea_level_density mass atmosphere_density wing_area takeoff_lift_coefficient_max propulsion_total_scaled_sls_thrust takeoff_climbout_thrust_fraction takeoff_lift_over_drag : ℝ) : ℝ :=
  ((rolling_distance mass wing_area takeoff_lift_coefficient_max
    propulsion_total_scaled_sls_thrust takeoff_lift_over_drag) + (rotation_distance
    sea_level_density mass atmosphere_density wing_area takeoff_lift_coefficient_max)) +
    (climbout_distance mass wing_area propulsion_total_scaled_sls_thrust
    takeoff_climbout_thrust_fraction takeoff_lift_over_drag)

/-- Output `takeoff_final_velocity` of `FinalTakeoffConditions.compute`, aviary/mission/energy_state/phases/simplified_takeoff.py:179 -/
noncomputable def out_takeoff_final_velocity (v_stall : ℝ) : ℝ := v2 v_stall

/-- Output `takeoff_final_mass` of `FinalTakeoffConditions.compute`, aviary/mission/energy_state/phases/simplified_takeoff.py:180 -/
noncomputable def out_takeoff_final_mass (mass takeoff_fuel_mass : ℝ) : ℝ :=
  mass - takeoff_fuel_mass

/-- Output `takeoff_final_altitude` of `FinalTakeoffConditions.compute`, aviary/mission/energy_state/phases/simplified_takeoff.py:181 -/
noncomputable def out_takeoff_final_altitude : ℝ := 35

/-- Partial of `takeoff_final_velocity` with respect to `v_stall` as set by `FinalTakeoffConditions`, aviary/mission/energy_state/phases/simplified_takeoff.py:111 -/
noncomputable def J_takeoff_final_velocity__v_stall : ℝ := 12309 / 10000

/-- Partial of `takeoff_final_mass` with respect to `mass` as set by `FinalTakeoffConditions`, aviary/mission/energy_state/phases/simplified_takeoff.py:128 -/
noncomputable def J_takeoff_final_mass__mass : ℝ := 1

/-- Partial of `takeoff_final_mass` with respect to `takeoff_fuel_mass` as set by `FinalTakeoffConditions`, aviary/mission/energy_state/phases/simplified_takeoff.py:133 -/
noncomputable def J_takeoff_final_mass__takeoff_fuel_mass : ℝ := -1

/-- Partial of `takeoff_ground_distance` with respect to `mass` as set by `FinalTakeoffConditions`, aviary/mission/energy_state/phases/simplified_takeoff.py:265 -/
noncomputable def J_takeoff_ground_distance__mass (sea_level_density mass atmosphere_density wing_area takeoff_lift_coefficient_max propulsion_total_scaled_sls_thrust takeoff_climbout_thrust_fraction takeoff_lift_over_drag : ℝ) : ℝ :=
  ((drd_dm mass wing_area takeoff_lift_coefficient_max propulsion_total_scaled_sls_thrust
    takeoff_lift_over_drag) + (drot_dm sea_level_density mass atmosphere_density wing_area
    takeoff_lift_coefficient_max)) + (dcout_dm mass wing_area propulsion_total_scaled_sls_thrust
    takeoff_climbout_thrust_fraction takeoff_lift_over_drag)

/-- Partial of `takeoff_ground_distance` with respect to `atmosphere_density` as set by `FinalTakeoffConditions`, aviary/mission/energy_state/phases/simplified_takeoff.py:266 -/
noncomputable def J_takeoff_ground_distance__atmosphere_density (sea_level_density mass atmosphere_density wing_area takeoff_lift_coefficient_max : ℝ) : ℝ :=
  (0 + (drot_drho sea_level_density mass atmosphere_density wing_area
    takeoff_lift_coefficient_max)) + 0

/-- Partial of `takeoff_ground_distance` with respect to `wing_area` as set by `FinalTakeoffConditions`, aviary/mission/energy_state/phases/simplified_takeoff.py:269 -/
noncomputable def J_takeoff_ground_distance__wing_area (sea_level_density mass atmosphere_density wing_area takeoff_lift_coefficient_max propulsion_total_scaled_sls_thrust takeoff_climbout_thrust_fraction takeoff_lift_over_drag : ℝ) : ℝ :=
  ((drd_ds mass wing_area takeoff_lift_coefficient_max propulsion_total_scaled_sls_thrust
    takeoff_lift_over_drag) + (drot_ds sea_level_density mass atmosphere_density wing_area
    takeoff_lift_coefficient_max)) + (dcout_ds mass wing_area propulsion_total_scaled_sls_thrust
    takeoff_climbout_thrust_fraction takeoff_lift_over_drag)

/-- Partial of `takeoff_ground_distance` with respect to `takeoff_lift_coefficient_max` as set by `FinalTakeoffConditions`, aviary/mission/energy_state/phases/simplified_takeoff.py:270 -/
noncomputable def J_takeoff_ground_distance__takeoff_lift_coefficient_max (sea_level_density mass atmosphere_density wing_area takeoff_lift_coefficient_max propulsion_total_scaled_sls_thrust takeoff_lift_over_drag : ℝ) : ℝ :=
  ((drd_dclmax mass wing_area takeoff_lift_coefficient_max propulsion_total_scaled_sls_thrust
    takeoff_lift_over_drag) + (drot_dclmax sea_level_density mass atmosphere_density wing_area
    takeoff_lift_coefficient_max)) + 0

/-- Partial of `takeoff_ground_distance` with respect to `propulsion_total_scaled_sls_thrust` as set by `FinalTakeoffConditions`, aviary/mission/energy_state/phases/simplified_takeoff.py:273 -/
noncomputable def J_takeoff_ground_distance__propulsion_total_scaled_sls_thrust (mass wing_area takeoff_lift_coefficient_max propulsion_total_scaled_sls_thrust takeoff_climbout_thrust_fraction takeoff_lift_over_drag : ℝ) : ℝ :=
  ((drd_dthrust mass wing_area takeoff_lift_coefficient_max propulsion_total_scaled_sls_thrust
    takeoff_lift_over_drag) + 0) + (dcout_dthrust mass wing_area
    propulsion_total_scaled_sls_thrust takeoff_climbout_thrust_fraction takeoff_lift_over_drag)

/-- Partial of `takeoff_ground_distance` with respect to `takeoff_climbout_thrust_fraction` as set by `FinalTakeoffConditions`, aviary/mission/energy_state/phases/simplified_takeoff.py:276 -/
noncomputable def J_takeoff_ground_distance__takeoff_climbout_thrust_fraction (mass wing_area propulsion_total_scaled_sls_thrust takeoff_climbout_thrust_fraction takeoff_lift_over_drag : ℝ) : ℝ :=
  0 + (dcout_dthrustfrac mass wing_area propulsion_total_scaled_sls_thrust
    takeoff_climbout_thrust_fraction takeoff_lift_over_drag)

/-- Partial of `takeoff_ground_distance` with respect to `takeoff_lift_over_drag` as set by `FinalTakeoffConditions`, aviary/mission/energy_state/phases/simplified_takeoff.py:279 -/
noncomputable def J_takeoff_ground_distance__takeoff_lift_over_drag (mass wing_area takeoff_lift_coefficient_max propulsion_total_scaled_sls_thrust takeoff_climbout_thrust_fraction takeoff_lift_over_drag : ℝ) : ℝ :=
  ((drd_dlod mass wing_area takeoff_lift_coefficient_max propulsion_total_scaled_sls_thrust
    takeoff_lift_over_drag) + 0) + (dcout_dlod mass wing_area propulsion_total_scaled_sls_thrust
    takeoff_climbout_thrust_fraction takeoff_lift_over_drag)

theorem d_takeoff_ground_distance__mass (sea_level_density mass atmosphere_density wing_area
    takeoff_lift_coefficient_max propulsion_total_scaled_sls_thrust
    takeoff_climbout_thrust_fraction takeoff_lift_over_drag : ℝ) (h0 : 0 < mass) (h1 : 0 <
    wing_area) (h2 : 0 < takeoff_lift_over_drag) (h3 : 0 < takeoff_lift_coefficient_max) (h4 :
    (propulsion_total_scaled_sls_thrust / mass) - (((1 / 5) + (((11 / 2000) * mass) / wing_area))
    / takeoff_lift_over_drag) ≠ 0) (h5 : 0 < sea_level_density) (h6 : 0 < atmosphere_density) (h7
    : (1 + ((propulsion_total_scaled_sls_thrust * takeoff_climbout_thrust_fraction) / mass)) - ((9
    / 10) / takeoff_lift_over_drag) ≠ 0) :
    HasDerivAt (fun t => out_takeoff_ground_distance sea_level_density t atmosphere_density wing_area takeoff_lift_coefficient_max propulsion_total_scaled_sls_thrust takeoff_climbout_thrust_fraction takeoff_lift_over_drag) (J_takeoff_ground_distance__mass sea_level_density mass atmosphere_density wing_area takeoff_lift_coefficient_max propulsion_total_scaled_sls_thrust takeoff_climbout_thrust_fraction takeoff_lift_over_drag) mass := by
  have e0 : ∀ x : ℝ, 0 < x → x ^ ((-(1 / 2)) : ℝ) = x ^ ((1 / 2) : ℝ) / x ^ 1 := fun x hx => rpow_down hx 1 (by norm_num)
  simp only [out_takeoff_ground_distance, J_takeoff_ground_distance__mass, dcout_dm, den_cout, drot_dm, rad_rot, drd_dm, den_rd, climbout_distance, climbout_thrust, rotation_distance, rho_ratio, rolling_distance]
  (apply hasDerivAt_of_eq; on_goal 1 => (repeat' comp_step))
  all_goals try comp_side
  all_goals try simp (disch := first | assumption | positivity) only [e0, div_mul_eq_div_div, div_half, inv_half]
  all_goals try simp only [mul_zero, zero_mul, add_zero, zero_add, sub_zero, zero_sub, mul_one, one_mul]
  all_goals try push_cast
  all_goals comp_eq

theorem d_takeoff_ground_distance__atmosphere_density (sea_level_density mass atmosphere_density
    wing_area takeoff_lift_coefficient_max propulsion_total_scaled_sls_thrust
    takeoff_climbout_thrust_fraction takeoff_lift_over_drag : ℝ) (h0 : 0 < mass) (h1 : 0 <
    wing_area) (h2 : 0 < takeoff_lift_over_drag) (h3 : 0 < takeoff_lift_coefficient_max) (h4 :
    (propulsion_total_scaled_sls_thrust / mass) - (((1 / 5) + (((11 / 2000) * mass) / wing_area))
    / takeoff_lift_over_drag) ≠ 0) (h5 : 0 < sea_level_density) (h6 : 0 < atmosphere_density) (h7
    : (1 + ((propulsion_total_scaled_sls_thrust * takeoff_climbout_thrust_fraction) / mass)) - ((9
    / 10) / takeoff_lift_over_drag) ≠ 0) :
    HasDerivAt (fun t => out_takeoff_ground_distance sea_level_density mass t wing_area takeoff_lift_coefficient_max propulsion_total_scaled_sls_thrust takeoff_climbout_thrust_fraction takeoff_lift_over_drag) (J_takeoff_ground_distance__atmosphere_density sea_level_density mass atmosphere_density wing_area takeoff_lift_coefficient_max) atmosphere_density := by
  have e0 : ∀ x : ℝ, 0 < x → x ^ ((-(1 / 2)) : ℝ) = x ^ ((1 / 2) : ℝ) / x ^ 1 := fun x hx => rpow_down hx 1 (by norm_num)
  simp only [out_takeoff_ground_distance, J_takeoff_ground_distance__atmosphere_density, drot_drho, rad_rot, climbout_distance, climbout_thrust, rotation_distance, rho_ratio, rolling_distance]
  (apply hasDerivAt_of_eq; on_goal 1 => (repeat' comp_step))
  all_goals try comp_side
  all_goals try simp (disch := first | assumption | positivity) only [e0, div_mul_eq_div_div, div_half, inv_half]
  all_goals try simp only [mul_zero, zero_mul, add_zero, zero_add, sub_zero, zero_sub, mul_one, one_mul]
  all_goals try push_cast
  all_goals comp_eq

theorem d_takeoff_ground_distance__wing_area (sea_level_density mass atmosphere_density wing_area
    takeoff_lift_coefficient_max propulsion_total_scaled_sls_thrust
    takeoff_climbout_thrust_fraction takeoff_lift_over_drag : ℝ) (h0 : 0 < mass) (h1 : 0 <
    wing_area) (h2 : 0 < takeoff_lift_over_drag) (h3 : 0 < takeoff_lift_coefficient_max) (h4 :
    (propulsion_total_scaled_sls_thrust / mass) - (((1 / 5) + (((11 / 2000) * mass) / wing_area))
    / takeoff_lift_over_drag) ≠ 0) (h5 : 0 < sea_level_density) (h6 : 0 < atmosphere_density) (h7
    : (1 + ((propulsion_total_scaled_sls_thrust * takeoff_climbout_thrust_fraction) / mass)) - ((9
    / 10) / takeoff_lift_over_drag) ≠ 0) :
    HasDerivAt (fun t => out_takeoff_ground_distance sea_level_density mass atmosphere_density t takeoff_lift_coefficient_max propulsion_total_scaled_sls_thrust takeoff_climbout_thrust_fraction takeoff_lift_over_drag) (J_takeoff_ground_distance__wing_area sea_level_density mass atmosphere_density wing_area takeoff_lift_coefficient_max propulsion_total_scaled_sls_thrust takeoff_climbout_thrust_fraction takeoff_lift_over_drag) wing_area := by
  have e0 : ∀ x : ℝ, 0 < x → x ^ ((-(1 / 2)) : ℝ) = x ^ ((1 / 2) : ℝ) / x ^ 1 := fun x hx => rpow_down hx 1 (by norm_num)
  simp only [out_takeoff_ground_distance, J_takeoff_ground_distance__wing_area, dcout_ds, den_cout, drot_ds, rad_rot, drd_ds, den_rd, climbout_distance, climbout_thrust, rotation_distance, rho_ratio, rolling_distance]
  (apply hasDerivAt_of_eq; on_goal 1 => (repeat' comp_step))
  all_goals try comp_side
  all_goals try simp (disch := first | assumption | positivity) only [e0, div_mul_eq_div_div, div_half, inv_half]
  all_goals try simp only [mul_zero, zero_mul, add_zero, zero_add, sub_zero, zero_sub, mul_one, one_mul]
  all_goals try push_cast
  all_goals comp_eq

theorem d_takeoff_ground_distance__takeoff_lift_coefficient_max (sea_level_density mass
    atmosphere_density wing_area takeoff_lift_coefficient_max propulsion_total_scaled_sls_thrust
    takeoff_climbout_thrust_fraction takeoff_lift_over_drag : ℝ) (h0 : 0 < mass) (h1 : 0 <
    wing_area) (h2 : 0 < takeoff_lift_over_drag) (h3 : 0 < takeoff_lift_coefficient_max) (h4 :
    (propulsion_total_scaled_sls_thrust / mass) - (((1 / 5) + (((11 / 2000) * mass) / wing_area))
    / takeoff_lift_over_drag) ≠ 0) (h5 : 0 < sea_level_density) (h6 : 0 < atmosphere_density) (h7
    : (1 + ((propulsion_total_scaled_sls_thrust * takeoff_climbout_thrust_fraction) / mass)) - ((9
    / 10) / takeoff_lift_over_drag) ≠ 0) :
    HasDerivAt (fun t => out_takeoff_ground_distance sea_level_density mass atmosphere_density wing_area t propulsion_total_scaled_sls_thrust takeoff_climbout_thrust_fraction takeoff_lift_over_drag) (J_takeoff_ground_distance__takeoff_lift_coefficient_max sea_level_density mass atmosphere_density wing_area takeoff_lift_coefficient_max propulsion_total_scaled_sls_thrust takeoff_lift_over_drag) takeoff_lift_coefficient_max := by
  have e0 : ∀ x : ℝ, 0 < x → x ^ ((-(1 / 2)) : ℝ) = x ^ ((1 / 2) : ℝ) / x ^ 1 := fun x hx => rpow_down hx 1 (by norm_num)
  simp only [out_takeoff_ground_distance, J_takeoff_ground_distance__takeoff_lift_coefficient_max, drot_dclmax, rad_rot, drd_dclmax, den_rd, climbout_distance, climbout_thrust, rotation_distance, rho_ratio, rolling_distance]
  (apply hasDerivAt_of_eq; on_goal 1 => (repeat' comp_step))
  all_goals try comp_side
  all_goals try simp (disch := first | assumption | positivity) only [e0, div_mul_eq_div_div, div_half, inv_half]
  all_goals try simp only [mul_zero, zero_mul, add_zero, zero_add, sub_zero, zero_sub, mul_one, one_mul]
  all_goals try push_cast
  all_goals comp_eq

theorem d_takeoff_ground_distance__propulsion_total_scaled_sls_thrust (sea_level_density mass
    atmosphere_density wing_area takeoff_lift_coefficient_max propulsion_total_scaled_sls_thrust
    takeoff_climbout_thrust_fraction takeoff_lift_over_drag : ℝ) (h0 : 0 < mass) (h1 : 0 <
    wing_area) (h2 : 0 < takeoff_lift_over_drag) (h3 : 0 < takeoff_lift_coefficient_max) (h4 :
    (propulsion_total_scaled_sls_thrust / mass) - (((1 / 5) + (((11 / 2000) * mass) / wing_area))
    / takeoff_lift_over_drag) ≠ 0) (h5 : 0 < sea_level_density) (h6 : 0 < atmosphere_density) (h7
    : (1 + ((propulsion_total_scaled_sls_thrust * takeoff_climbout_thrust_fraction) / mass)) - ((9
    / 10) / takeoff_lift_over_drag) ≠ 0) :
    HasDerivAt (fun t => out_takeoff_ground_distance sea_level_density mass atmosphere_density wing_area takeoff_lift_coefficient_max t takeoff_climbout_thrust_fraction takeoff_lift_over_drag) (J_takeoff_ground_distance__propulsion_total_scaled_sls_thrust mass wing_area takeoff_lift_coefficient_max propulsion_total_scaled_sls_thrust takeoff_climbout_thrust_fraction takeoff_lift_over_drag) propulsion_total_scaled_sls_thrust := by
  simp only [out_takeoff_ground_distance, J_takeoff_ground_distance__propulsion_total_scaled_sls_thrust, dcout_dthrust, den_cout, drd_dthrust, climbout_distance, climbout_thrust, rotation_distance, rho_ratio, rolling_distance]
  (apply hasDerivAt_of_eq; on_goal 1 => (repeat' comp_step))
  all_goals try comp_side
  all_goals try simp (disch := first | assumption | positivity) only [div_mul_eq_div_div, div_half, inv_half]
  all_goals try simp only [mul_zero, zero_mul, add_zero, zero_add, sub_zero, zero_sub, mul_one, one_mul]
  all_goals try push_cast
  all_goals comp_eq

theorem d_takeoff_ground_distance__takeoff_climbout_thrust_fraction (sea_level_density mass
    atmosphere_density wing_area takeoff_lift_coefficient_max propulsion_total_scaled_sls_thrust
    takeoff_climbout_thrust_fraction takeoff_lift_over_drag : ℝ) (h0 : 0 < mass) (h1 : 0 <
    wing_area) (h2 : 0 < takeoff_lift_over_drag) (h3 : 0 < takeoff_lift_coefficient_max) (h4 :
    (propulsion_total_scaled_sls_thrust / mass) - (((1 / 5) + (((11 / 2000) * mass) / wing_area))
    / takeoff_lift_over_drag) ≠ 0) (h5 : 0 < sea_level_density) (h6 : 0 < atmosphere_density) (h7
    : (1 + ((propulsion_total_scaled_sls_thrust * takeoff_climbout_thrust_fraction) / mass)) - ((9
    / 10) / takeoff_lift_over_drag) ≠ 0) :
    HasDerivAt (fun t => out_takeoff_ground_distance sea_level_density mass atmosphere_density wing_area takeoff_lift_coefficient_max propulsion_total_scaled_sls_thrust t takeoff_lift_over_drag) (J_takeoff_ground_distance__takeoff_climbout_thrust_fraction mass wing_area propulsion_total_scaled_sls_thrust takeoff_climbout_thrust_fraction takeoff_lift_over_drag) takeoff_climbout_thrust_fraction := by
  simp only [out_takeoff_ground_distance, J_takeoff_ground_distance__takeoff_climbout_thrust_fraction, dcout_dthrustfrac, den_cout, climbout_distance, climbout_thrust, rotation_distance, rho_ratio, rolling_distance]
  (apply hasDerivAt_of_eq; on_goal 1 => (repeat' comp_step))
  all_goals try comp_side
  all_goals try simp (disch := first | assumption | positivity) only [div_mul_eq_div_div, div_half, inv_half]
  all_goals try simp only [mul_zero, zero_mul, add_zero, zero_add, sub_zero, zero_sub, mul_one, one_mul]
  all_goals try push_cast
  all_goals comp_eq

theorem d_takeoff_ground_distance__takeoff_lift_over_drag (sea_level_density mass
    atmosphere_density wing_area takeoff_lift_coefficient_max propulsion_total_scaled_sls_thrust
    takeoff_climbout_thrust_fraction takeoff_lift_over_drag : ℝ) (h0 : 0 < mass) (h1 : 0 <
    wing_area) (h2 : 0 < takeoff_lift_over_drag) (h3 : 0 < takeoff_lift_coefficient_max) (h4 :
    (propulsion_total_scaled_sls_thrust / mass) - (((1 / 5) + (((11 / 2000) * mass) / wing_area))
    / takeoff_lift_over_drag) ≠ 0) (h5 : 0 < sea_level_density) (h6 : 0 < atmosphere_density) (h7
    : (1 + ((propulsion_total_scaled_sls_thrust * takeoff_climbout_thrust_fraction) / mass)) - ((9
    / 10) / takeoff_lift_over_drag) ≠ 0) :
    HasDerivAt (fun t => out_takeoff_ground_distance sea_level_density mass atmosphere_density wing_area takeoff_lift_coefficient_max propulsion_total_scaled_sls_thrust takeoff_climbout_thrust_fraction t) (J_takeoff_ground_distance__takeoff_lift_over_drag mass wing_area takeoff_lift_coefficient_max propulsion_total_scaled_sls_thrust takeoff_climbout_thrust_fraction takeoff_lift_over_drag) takeoff_lift_over_drag := by
  simp only [out_takeoff_ground_distance, J_takeoff_ground_distance__takeoff_lift_over_drag, dcout_dlod, den_cout, drd_dlod, climbout_distance, climbout_thrust, rotation_distance, rho_ratio, rolling_distance]
  (apply hasDerivAt_of_eq; on_goal 1 => (repeat' comp_step))
  all_goals try comp_side
  all_goals try simp (disch := first | assumption | positivity) only [div_mul_eq_div_div, div_half, inv_half]
  all_goals try simp only [mul_zero, zero_mul, add_zero, zero_add, sub_zero, zero_sub, mul_one, one_mul]
  all_goals try push_cast
  all_goals comp_eq

theorem d_takeoff_final_velocity__v_stall (v_stall : ℝ)  :
    HasDerivAt (fun t => out_takeoff_final_velocity t) (J_takeoff_final_velocity__v_stall) v_stall := by
  simp only [out_takeoff_final_velocity, J_takeoff_final_velocity__v_stall, v2]
  (apply hasDerivAt_of_eq; on_goal 1 => (repeat' comp_step))
  all_goals try comp_side
  all_goals try simp only [mul_zero, zero_mul, add_zero, zero_add, sub_zero, zero_sub, mul_one, one_mul]
  all_goals try push_cast
  all_goals comp_eq

theorem d_takeoff_final_mass__mass (mass takeoff_fuel_mass : ℝ)  :
    HasDerivAt (fun t => out_takeoff_final_mass t takeoff_fuel_mass) (J_takeoff_final_mass__mass) mass := by
  simp only [out_takeoff_final_mass, J_takeoff_final_mass__mass]
  (apply hasDerivAt_of_eq; on_goal 1 => (repeat' comp_step))
  all_goals try comp_side
  all_goals try simp only [mul_zero, zero_mul, add_zero, zero_add, sub_zero, zero_sub, mul_one, one_mul]
  all_goals try push_cast
  all_goals comp_eq

theorem d_takeoff_final_mass__takeoff_fuel_mass (mass takeoff_fuel_mass : ℝ)  :
    HasDerivAt (fun t => out_takeoff_final_mass mass t) (J_takeoff_final_mass__takeoff_fuel_mass) takeoff_fuel_mass := by
  simp only [out_takeoff_final_mass, J_takeoff_final_mass__takeoff_fuel_mass]
  (apply hasDerivAt_of_eq; on_goal 1 => (repeat' comp_step))
  all_goals try comp_side
  all_goals try simp only [mul_zero, zero_mul, add_zero, zero_add, sub_zero, zero_sub, mul_one, one_mul]
  all_goals try push_cast
  all_goals comp_eq

/-- Every partial derivative set by `FinalTakeoffConditions` is the derivative of its output. -/
theorem partials (sea_level_density v_stall mass atmosphere_density wing_area
    takeoff_lift_coefficient_max propulsion_total_scaled_sls_thrust
    takeoff_climbout_thrust_fraction takeoff_lift_over_drag takeoff_fuel_mass : ℝ) (h0 : 0 < mass)
    (h1 : 0 < wing_area) (h2 : 0 < takeoff_lift_over_drag) (h3 : 0 < takeoff_lift_coefficient_max)
    (h4 : (propulsion_total_scaled_sls_thrust / mass) - (((1 / 5) + (((11 / 2000) * mass) /
    wing_area)) / takeoff_lift_over_drag) ≠ 0) (h5 : 0 < sea_level_density) (h6 : 0 <
    atmosphere_density) (h7 : (1 + ((propulsion_total_scaled_sls_thrust *
    takeoff_climbout_thrust_fraction) / mass)) - ((9 / 10) / takeoff_lift_over_drag) ≠ 0) :
    HasDerivAt (fun t => out_takeoff_ground_distance sea_level_density t atmosphere_density wing_area
      takeoff_lift_coefficient_max propulsion_total_scaled_sls_thrust
      takeoff_climbout_thrust_fraction takeoff_lift_over_drag) (J_takeoff_ground_distance__mass
      sea_level_density mass atmosphere_density wing_area takeoff_lift_coefficient_max
      propulsion_total_scaled_sls_thrust takeoff_climbout_thrust_fraction takeoff_lift_over_drag)
      mass ∧
    HasDerivAt (fun t => out_takeoff_ground_distance sea_level_density mass t wing_area
      takeoff_lift_coefficient_max propulsion_total_scaled_sls_thrust
      takeoff_climbout_thrust_fraction takeoff_lift_over_drag)
      (J_takeoff_ground_distance__atmosphere_density sea_level_density mass atmosphere_density
      wing_area takeoff_lift_coefficient_max) atmosphere_density ∧
    HasDerivAt (fun t => out_takeoff_ground_distance sea_level_density mass atmosphere_density t
      takeoff_lift_coefficient_max propulsion_total_scaled_sls_thrust
      takeoff_climbout_thrust_fraction takeoff_lift_over_drag)
      (J_takeoff_ground_distance__wing_area sea_level_density mass atmosphere_density wing_area
      takeoff_lift_coefficient_max propulsion_total_scaled_sls_thrust
      takeoff_climbout_thrust_fraction takeoff_lift_over_drag) wing_area ∧
    HasDerivAt (fun t => out_takeoff_ground_distance sea_level_density mass atmosphere_density
      wing_area t propulsion_total_scaled_sls_thrust takeoff_climbout_thrust_fraction
      takeoff_lift_over_drag) (J_takeoff_ground_distance__takeoff_lift_coefficient_max
      sea_level_density mass atmosphere_density wing_area takeoff_lift_coefficient_max
      propulsion_total_scaled_sls_thrust takeoff_lift_over_drag) takeoff_lift_coefficient_max ∧
    HasDerivAt (fun t => out_takeoff_ground_distance sea_level_density mass atmosphere_density
      wing_area takeoff_lift_coefficient_max t takeoff_climbout_thrust_fraction
      takeoff_lift_over_drag) (J_takeoff_ground_distance__propulsion_total_scaled_sls_thrust mass
      wing_area takeoff_lift_coefficient_max propulsion_total_scaled_sls_thrust
      takeoff_climbout_thrust_fraction takeoff_lift_over_drag) propulsion_total_scaled_sls_thrust ∧
    HasDerivAt (fun t => out_takeoff_ground_distance sea_level_density mass atmosphere_density
      wing_area takeoff_lift_coefficient_max propulsion_total_scaled_sls_thrust t
      takeoff_lift_over_drag) (J_takeoff_ground_distance__takeoff_climbout_thrust_fraction mass
      wing_area propulsion_total_scaled_sls_thrust takeoff_climbout_thrust_fraction
      takeoff_lift_over_drag) takeoff_climbout_thrust_fraction ∧
    HasDerivAt (fun t => out_takeoff_ground_distance sea_level_density mass atmosphere_density
      wing_area takeoff_lift_coefficient_max propulsion_total_scaled_sls_thrust
      takeoff_climbout_thrust_fraction t) (J_takeoff_ground_distance__takeoff_lift_over_drag mass
      wing_area takeoff_lift_coefficient_max propulsion_total_scaled_sls_thrust
      takeoff_climbout_thrust_fraction takeoff_lift_over_drag) takeoff_lift_over_drag ∧
    HasDerivAt (fun t => out_takeoff_final_velocity t) (J_takeoff_final_velocity__v_stall) v_stall ∧
    HasDerivAt (fun t => out_takeoff_final_mass t takeoff_fuel_mass) (J_takeoff_final_mass__mass) mass ∧
    HasDerivAt (fun t => out_takeoff_final_mass mass t) (J_takeoff_final_mass__takeoff_fuel_mass)
      takeoff_fuel_mass :=
  ⟨d_takeoff_ground_distance__mass _ _ _ _ _ _ _ _ h0 h1 h2 h3 h4 h5 h6 h7,
    d_takeoff_ground_distance__atmosphere_density _ _ _ _ _ _ _ _ h0 h1 h2 h3 h4 h5 h6 h7,
    d_takeoff_ground_distance__wing_area _ _ _ _ _ _ _ _ h0 h1 h2 h3 h4 h5 h6 h7,
    d_takeoff_ground_distance__takeoff_lift_coefficient_max _ _ _ _ _ _ _ _ h0 h1 h2 h3 h4 h5 h6
    h7, d_takeoff_ground_distance__propulsion_total_scaled_sls_thrust _ _ _ _ _ _ _ _ h0 h1 h2 h3
    h4 h5 h6 h7, d_takeoff_ground_distance__takeoff_climbout_thrust_fraction _ _ _ _ _ _ _ _ h0 h1
    h2 h3 h4 h5 h6 h7, d_takeoff_ground_distance__takeoff_lift_over_drag _ _ _ _ _ _ _ _ h0 h1 h2
    h3 h4 h5 h6 h7, d_takeoff_final_velocity__v_stall _, d_takeoff_final_mass__mass _ _,
    d_takeoff_final_mass__takeoff_fuel_mass _ _⟩

example : ∃ sea_level_density v_stall mass atmosphere_density wing_area
      takeoff_lift_coefficient_max propulsion_total_scaled_sls_thrust
      takeoff_climbout_thrust_fraction takeoff_lift_over_drag takeoff_fuel_mass : ℝ,
      0 < mass ∧
      0 < wing_area ∧
      0 < takeoff_lift_over_drag ∧
      0 < takeoff_lift_coefficient_max ∧
      (propulsion_total_scaled_sls_thrust / mass) - (((1 / 5) + (((11 / 2000) * mass) / wing_area)) /
        takeoff_lift_over_drag) ≠ 0 ∧
      0 < sea_level_density ∧
      0 < atmosphere_density ∧
      (1 + ((propulsion_total_scaled_sls_thrust * takeoff_climbout_thrust_fraction) / mass)) - ((9 / 10)
        / takeoff_lift_over_drag) ≠ 0 :=
  ⟨1, 0, 1, 1, 1, 1, 0, 0, 1, 0, by comp_example, by comp_example, by comp_example, by
    comp_example, by comp_example, by comp_example, by comp_example, by comp_example⟩

end Verif.Comp.MissionEnergyStatePhasesSimplifiedTakeoff.FinalTakeoffConditions

namespace Verif.Comp.MissionEnergyStatePhasesSimplifiedTakeoff.StallSpeed
open Real

/-- aviary/mission/energy_state/phases/simplified_takeoff.py:36 -/
noncomputable def weight (mass : ℝ) : ℝ := mass * (222411 / 50000)

/-- aviary/mission/energy_state/phases/simplified_takeoff.py:41 -/
noncomputable def v_stall (mass atmosphere_density wing_area cl_max : ℝ) : ℝ :=
  ((2 * (weight mass)) / ((atmosphere_density * wing_area) * cl_max)) ^ ((1 / 2) : ℝ)

/-- aviary/mission/energy_state/phases/simplified_takeoff.py:51 -/
noncomputable def rad (mass atmosphere_density wing_area cl_max : ℝ) : ℝ :=
  (2 * mass) / ((atmosphere_density * wing_area) * cl_max)

/-- Output `v_stall` of `StallSpeed.compute`, aviary/mission/energy_state/phases/simplified_takeoff.py:43 -/
noncomputable def out_v_stall (mass atmosphere_density wing_area cl_max : ℝ) : ℝ :=
  v_stall mass atmosphere_density wing_area cl_max

/-- Partial of `v_stall` with respect to `mass` as set by `StallSpeed`, aviary/mission/energy_state/phases/simplified_takeoff.py:53 -/
noncomputable def J_v_stall__mass (mass atmosphere_density wing_area cl_max : ℝ) : ℝ :=
  ((((1 / 2) * ((222411 / 50000) ^ ((1 / 2) : ℝ))) * ((rad mass atmosphere_density wing_area
    cl_max) ^ ((-(1 / 2)) : ℝ))) * 2) / ((atmosphere_density * wing_area) * cl_max)

/-- Partial of `v_stall` with respect to `atmosphere_density` as set by `StallSpeed`, aviary/mission/energy_state/phases/simplified_takeoff.py:56 -/
noncomputable def J_v_stall__atmosphere_density (mass atmosphere_density wing_area cl_max : ℝ) : ℝ :=
  ((((1 / 2) * ((222411 / 50000) ^ ((1 / 2) : ℝ))) * ((rad mass atmosphere_density wing_area
    cl_max) ^ ((-(1 / 2)) : ℝ))) * ((-2) * mass)) / (((atmosphere_density ^ 2) * wing_area) *
    cl_max)

/-- Partial of `v_stall` with respect to `wing_area` as set by `StallSpeed`, aviary/mission/energy_state/phases/simplified_takeoff.py:59 -/
noncomputable def J_v_stall__wing_area (mass atmosphere_density wing_area cl_max : ℝ) : ℝ :=
  ((((1 / 2) * ((222411 / 50000) ^ ((1 / 2) : ℝ))) * ((rad mass atmosphere_density wing_area
    cl_max) ^ ((-(1 / 2)) : ℝ))) * ((-2) * mass)) / ((atmosphere_density * (wing_area ^ 2)) *
    cl_max)

/-- Partial of `v_stall` with respect to `cl_max` as set by `StallSpeed`, aviary/mission/energy_state/phases/simplified_takeoff.py:62 -/
noncomputable def J_v_stall__cl_max (mass atmosphere_density wing_area cl_max : ℝ) : ℝ :=
  ((((1 / 2) * ((222411 / 50000) ^ ((1 / 2) : ℝ))) * ((rad mass atmosphere_density wing_area
    cl_max) ^ ((-(1 / 2)) : ℝ))) * ((-2) * mass)) / ((atmosphere_density * wing_area) * (cl_max
    ^ 2))

theorem d_v_stall__mass (mass atmosphere_density wing_area cl_max : ℝ) (h0 : 0 <
    atmosphere_density) (h1 : 0 < wing_area) (h2 : 0 < cl_max) (h3 : 0 < mass) :
    HasDerivAt (fun t => out_v_stall t atmosphere_density wing_area cl_max) (J_v_stall__mass mass atmosphere_density wing_area cl_max) mass := by
  have e0 : ∀ x : ℝ, 0 < x → x ^ ((-(1 / 2)) : ℝ) = x ^ ((1 / 2) : ℝ) / x ^ 1 := fun x hx => rpow_down hx 1 (by norm_num)
  simp only [out_v_stall, J_v_stall__mass, rad, v_stall, weight]
  (apply hasDerivAt_of_eq; on_goal 1 => (repeat' comp_step))
  all_goals try comp_side
  all_goals try simp (disch := first | assumption | positivity) only [mul_rpow, div_rpow, e0, div_mul_eq_div_div, div_half, inv_half]
  all_goals try simp only [mul_zero, zero_mul, add_zero, zero_add, sub_zero, zero_sub, mul_one, one_mul]
  all_goals try push_cast
  all_goals comp_eq

theorem d_v_stall__atmosphere_density (mass atmosphere_density wing_area cl_max : ℝ) (h0 : 0 <
    atmosphere_density) (h1 : 0 < wing_area) (h2 : 0 < cl_max) (h3 : 0 < mass) :
    HasDerivAt (fun t => out_v_stall mass t wing_area cl_max) (J_v_stall__atmosphere_density mass atmosphere_density wing_area cl_max) atmosphere_density := by
  have e0 : ∀ x : ℝ, 0 < x → x ^ ((-(1 / 2)) : ℝ) = x ^ ((1 / 2) : ℝ) / x ^ 1 := fun x hx => rpow_down hx 1 (by norm_num)
  simp only [out_v_stall, J_v_stall__atmosphere_density, rad, v_stall, weight]
  (apply hasDerivAt_of_eq; on_goal 1 => (repeat' comp_step))
  all_goals try comp_side
  all_goals try simp (disch := first | assumption | positivity) only [mul_rpow, div_rpow, e0, div_mul_eq_div_div, div_half, inv_half]
  all_goals try simp only [mul_zero, zero_mul, add_zero, zero_add, sub_zero, zero_sub, mul_one, one_mul]
  all_goals try push_cast
  all_goals comp_eq

theorem d_v_stall__wing_area (mass atmosphere_density wing_area cl_max : ℝ) (h0 : 0 <
    atmosphere_density) (h1 : 0 < wing_area) (h2 : 0 < cl_max) (h3 : 0 < mass) :
    HasDerivAt (fun t => out_v_stall mass atmosphere_density t cl_max) (J_v_stall__wing_area mass atmosphere_density wing_area cl_max) wing_area := by
  have e0 : ∀ x : ℝ, 0 < x → x ^ ((-(1 / 2)) : ℝ) = x ^ ((1 / 2) : ℝ) / x ^ 1 := fun x hx => rpow_down hx 1 (by norm_num)
  simp only [out_v_stall, J_v_stall__wing_area, rad, v_stall, weight]
  (apply hasDerivAt_of_eq; on_goal 1 => (repeat' comp_step))
  all_goals try comp_side
  all_goals try simp (disch := first | assumption | positivity) only [mul_rpow, div_rpow, e0, div_mul_eq_div_div, div_half, inv_half]
  all_goals try simp only [mul_zero, zero_mul, add_zero, zero_add, sub_zero, zero_sub, mul_one, one_mul]
  all_goals try push_cast
  all_goals comp_eq

theorem d_v_stall__cl_max (mass atmosphere_density wing_area cl_max : ℝ) (h0 : 0 <
    atmosphere_density) (h1 : 0 < wing_area) (h2 : 0 < cl_max) (h3 : 0 < mass) :
    HasDerivAt (fun t => out_v_stall mass atmosphere_density wing_area t) (J_v_stall__cl_max mass atmosphere_density wing_area cl_max) cl_max := by
  have e0 : ∀ x : ℝ, 0 < x → x ^ ((-(1 / 2)) : ℝ) = x ^ ((1 / 2) : ℝ) / x ^ 1 := fun x hx => rpow_down hx 1 (by norm_num)
  simp only [out_v_stall, J_v_stall__cl_max, rad, v_stall, weight]
  (apply hasDerivAt_of_eq; on_goal 1 => (repeat' comp_step))
  all_goals try comp_side
  all_goals try simp (disch := first | assumption | positivity) only [mul_rpow, div_rpow, e0, div_mul_eq_div_div, div_half, inv_half]
  all_goals try simp only [mul_zero, zero_mul, add_zero, zero_add, sub_zero, zero_sub, mul_one, one_mul]
  all_goals try push_cast
  all_goals comp_eq

/-- Every partial derivative set by `StallSpeed` is the derivative of its output. -/
theorem partials (mass atmosphere_density wing_area cl_max : ℝ) (h0 : 0 < atmosphere_density) (h1
    : 0 < wing_area) (h2 : 0 < cl_max) (h3 : 0 < mass) :
    HasDerivAt (fun t => out_v_stall t atmosphere_density wing_area cl_max) (J_v_stall__mass mass
      atmosphere_density wing_area cl_max) mass ∧
    HasDerivAt (fun t => out_v_stall mass t wing_area cl_max) (J_v_stall__atmosphere_density mass
      atmosphere_density wing_area cl_max) atmosphere_density ∧
    HasDerivAt (fun t => out_v_stall mass atmosphere_density t cl_max) (J_v_stall__wing_area mass
      atmosphere_density wing_area cl_max) wing_area ∧
    HasDerivAt (fun t => out_v_stall mass atmosphere_density wing_area t) (J_v_stall__cl_max mass
      atmosphere_density wing_area cl_max) cl_max :=
  ⟨d_v_stall__mass _ _ _ _ h0 h1 h2 h3, d_v_stall__atmosphere_density _ _ _ _ h0 h1 h2 h3,
    d_v_stall__wing_area _ _ _ _ h0 h1 h2 h3, d_v_stall__cl_max _ _ _ _ h0 h1 h2 h3⟩

example : ∃ mass atmosphere_density wing_area cl_max : ℝ,
      0 < atmosphere_density ∧
      0 < wing_area ∧
      0 < cl_max ∧
      0 < mass :=
  ⟨1, 1, 1, 1, by comp_example, by comp_example, by comp_example, by comp_example⟩

end Verif.Comp.MissionEnergyStatePhasesSimplifiedTakeoff.StallSpeed

