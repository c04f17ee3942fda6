import Verif.Lemmas.CompDeriv

/-! # Partial derivatives of the components of `aviary/mission/energy_state/phases/simplified_landing.py`

One node of a vector component is modelled over the real numbers.  Each option that selects a
branch is fixed, one namespace per choice.  `out_x` is the output `x`, `J_x__y` the entry that
`compute_partials` (or `declare_partials` with `val`) assigns, `d_x__y` the proof that the entry is
the derivative.  Inputs an output does not take as argument have no influence on it. -/

set_option linter.all false

namespace Verif.Comp.MissionEnergyStatePhasesSimplifiedLanding.LandingCalc
open Real

/-- aviary/mission/energy_state/phases/simplified_landing.py:35 -/
noncomputable def rho_ratio (sea_level_density atmosphere_density : ℝ) : ℝ :=
  atmosphere_density / sea_level_density

/-- aviary/mission/energy_state/phases/simplified_landing.py:40 -/
noncomputable def cl_app (landing_lift_coefficient_max : ℝ) : ℝ :=
  landing_lift_coefficient_max / (169 / 100)

/-- aviary/mission/energy_state/phases/simplified_landing.py:42 -/
noncomputable def v_app (final_mass atmosphere_density wing_area landing_lift_coefficient_max : ℝ) : ℝ :=
  ((2 * final_mass) / ((atmosphere_density * wing_area) * (cl_app
    landing_lift_coefficient_max))) ^ ((1 / 2) : ℝ)

/-- aviary/mission/energy_state/phases/simplified_landing.py:44 -/
noncomputable def landing_distance (sea_level_density final_mass atmosphere_density wing_area landing_lift_coefficient_max : ℝ) : ℝ :=
  2500 + ((105 * final_mass) / (((wing_area * (rho_ratio sea_level_density atmosphere_density))
    * (cl_app landing_lift_coefficient_max)) * (169 / 100)))

/-- aviary/mission/energy_state/phases/simplified_landing.py:62 -/
noncomputable def d_sqrt (final_mass atmosphere_density wing_area landing_lift_coefficient_max : ℝ) : ℝ :=
  (1 / 2) / (v_app final_mass atmosphere_density wing_area landing_lift_coefficient_max)

/-- Output `landing_ground_distance` of `LandingCalc.compute`, aviary/mission/energy_state/phases/simplified_landing.py:46 -/
noncomputable def out_landing_ground_distance (sea_level_density final_mass atmosphere_density wing_area landing_lift_coefficient_max : ℝ) : ℝ :=
  landing_distance sea_level_density final_mass atmosphere_density wing_area
    landing_lift_coefficient_max

/-- Output `landing_initial_velocity` of `LandingCalc.compute`, aviary/mission/energy_state/phases/simplified_landing.py:47 -/
noncomputable def out_landing_initial_velocity (final_mass atmosphere_density wing_area landing_lift_coefficient_max : ℝ) : ℝ :=
  v_app final_mass atmosphere_density wing_area landing_lift_coefficient_max

/-- Partial of `landing_initial_velocity` with respect to `final_mass` as set by `LandingCalc`, aviary/mission/energy_state/phases/simplified_landing.py:64 -/
noncomputable def J_landing_initial_velocity__final_mass (final_mass atmosphere_density wing_area landing_lift_coefficient_max : ℝ) : ℝ :=
  ((d_sqrt final_mass atmosphere_density wing_area landing_lift_coefficient_max) * 2) /
    ((atmosphere_density * wing_area) * (cl_app landing_lift_coefficient_max))

/-- Partial of `landing_initial_velocity` with respect to `atmosphere_density` as set by `LandingCalc`, aviary/mission/energy_state/phases/simplified_landing.py:68 -/
noncomputable def J_landing_initial_velocity__atmosphere_density (final_mass atmosphere_density wing_area landing_lift_coefficient_max : ℝ) : ℝ :=
  ((d_sqrt final_mass atmosphere_density wing_area landing_lift_coefficient_max) * ((-2) *
    final_mass)) / (((atmosphere_density ^ 2) * wing_area) * (cl_app
    landing_lift_coefficient_max))

/-- Partial of `landing_initial_velocity` with respect to `wing_area` as set by `LandingCalc`, aviary/mission/energy_state/phases/simplified_landing.py:72 -/
noncomputable def J_landing_initial_velocity__wing_area (final_mass atmosphere_density wing_area landing_lift_coefficient_max : ℝ) : ℝ :=
  ((d_sqrt final_mass atmosphere_density wing_area landing_lift_coefficient_max) * ((-2) *
    final_mass)) / ((atmosphere_density * (wing_area ^ 2)) * (cl_app
    landing_lift_coefficient_max))

/-- Partial of `landing_initial_velocity` with respect to `landing_lift_coefficient_max` as set by `LandingCalc`, aviary/mission/energy_state/phases/simplified_landing.py:76 -/
noncomputable def J_landing_initial_velocity__landing_lift_coefficient_max (final_mass atmosphere_density wing_area landing_lift_coefficient_max : ℝ) : ℝ :=
  (((d_sqrt final_mass atmosphere_density wing_area landing_lift_coefficient_max) * ((-2) *
    final_mass)) / ((atmosphere_density * wing_area) * ((cl_app landing_lift_coefficient_max) ^
    2))) / (169 / 100)

/-- Partial of `landing_ground_distance` with respect to `final_mass` as set by `LandingCalc`, aviary/mission/energy_state/phases/simplified_landing.py:81 -/
noncomputable def J_landing_ground_distance__final_mass (sea_level_density atmosphere_density wing_area landing_lift_coefficient_max : ℝ) : ℝ :=
  105 / (((wing_area * (rho_ratio sea_level_density atmosphere_density)) * (cl_app
    landing_lift_coefficient_max)) * (169 / 100))

/-- Partial of `landing_ground_distance` with respect to `wing_area` as set by `LandingCalc`, aviary/mission/energy_state/phases/simplified_landing.py:84 -/
noncomputable def J_landing_ground_distance__wing_area (sea_level_density final_mass atmosphere_density wing_area landing_lift_coefficient_max : ℝ) : ℝ :=
  ((-105) * final_mass) / ((((wing_area ^ 2) * (rho_ratio sea_level_density atmosphere_density))
    * (cl_app landing_lift_coefficient_max)) * (169 / 100))

/-- Partial of `landing_ground_distance` with respect to `landing_lift_coefficient_max` as set by `LandingCalc`, aviary/mission/energy_state/phases/simplified_landing.py:87 -/
noncomputable def J_landing_ground_distance__landing_lift_coefficient_max (sea_level_density final_mass atmosphere_density wing_area landing_lift_coefficient_max : ℝ) : ℝ :=
  (((-105) * final_mass) / (((wing_area * (rho_ratio sea_level_density atmosphere_density)) *
    ((cl_app landing_lift_coefficient_max) ^ 2)) * (169 / 100))) / (169 / 100)

/-- Partial of `landing_ground_distance` with respect to `atmosphere_density` as set by `LandingCalc`, aviary/mission/energy_state/phases/simplified_landing.py:90 -/
noncomputable def J_landing_ground_distance__atmosphere_density (sea_level_density final_mass atmosphere_density wing_area landing_lift_coefficient_max : ℝ) : ℝ :=
  (((-105) * final_mass) / (((wing_area * ((rho_ratio sea_level_density atmosphere_density) ^
    2)) * (cl_app landing_lift_coefficient_max)) * (169 / 100))) / sea_level_density

theorem d_landing_ground_distance__final_mass (sea_level_density final_mass atmosphere_density
    wing_area landing_lift_coefficient_max : ℝ) (h0 : 0 < sea_level_density) (h1 : 0 < wing_area)
    (h2 : 0 < atmosphere_density) (h3 : 0 < landing_lift_coefficient_max) :
    HasDerivAt (fun t => out_landing_ground_distance sea_level_density t atmosphere_density wing_area landing_lift_coefficient_max) (J_landing_ground_distance__final_mass sea_level_density atmosphere_density wing_area landing_lift_coefficient_max) final_mass := by
  simp only [out_landing_ground_distance, J_landing_ground_distance__final_mass, landing_distance, cl_app, rho_ratio]
  (apply hasDerivAt_of_eq; on_goal 1 => (repeat' comp_step))
  all_goals try comp_side
  all_goals try simp only [mul_zero, zero_mul, add_zero, zero_add, sub_zero, zero_sub, mul_one, one_mul]
  all_goals try push_cast
  all_goals comp_eq

theorem d_landing_ground_distance__atmosphere_density (sea_level_density final_mass
    atmosphere_density wing_area landing_lift_coefficient_max : ℝ) (h0 : 0 < sea_level_density)
    (h1 : 0 < wing_area) (h2 : 0 < atmosphere_density) (h3 : 0 < landing_lift_coefficient_max) :
    HasDerivAt (fun t => out_landing_ground_distance sea_level_density final_mass t wing_area landing_lift_coefficient_max) (J_landing_ground_distance__atmosphere_density sea_level_density final_mass atmosphere_density wing_area landing_lift_coefficient_max) atmosphere_density := by
  simp only [out_landing_ground_distance, J_landing_ground_distance__atmosphere_density, landing_distance, cl_app, rho_ratio]
  (apply hasDerivAt_of_eq; on_goal 1 => (repeat' comp_step))
  all_goals try comp_side
  all_goals try simp only [mul_zero, zero_mul, add_zero, zero_add, sub_zero, zero_sub, mul_one, one_mul]
  all_goals try push_cast
  all_goals comp_eq

theorem d_landing_ground_distance__wing_area (sea_level_density final_mass atmosphere_density
    wing_area landing_lift_coefficient_max : ℝ) (h0 : 0 < sea_level_density) (h1 : 0 < wing_area)
    (h2 : 0 < atmosphere_density) (h3 : 0 < landing_lift_coefficient_max) :
    HasDerivAt (fun t => out_landing_ground_distance sea_level_density final_mass atmosphere_density t landing_lift_coefficient_max) (J_landing_ground_distance__wing_area sea_level_density final_mass atmosphere_density wing_area landing_lift_coefficient_max) wing_area := by
  simp only [out_landing_ground_distance, J_landing_ground_distance__wing_area, landing_distance, cl_app, rho_ratio]
  (apply hasDerivAt_of_eq; on_goal 1 => (repeat' comp_step))
  all_goals try comp_side
  all_goals try simp only [mul_zero, zero_mul, add_zero, zero_add, sub_zero, zero_sub, mul_one, one_mul]
  all_goals try push_cast
  all_goals comp_eq

theorem d_landing_ground_distance__landing_lift_coefficient_max (sea_level_density final_mass
    atmosphere_density wing_area landing_lift_coefficient_max : ℝ) (h0 : 0 < sea_level_density)
    (h1 : 0 < wing_area) (h2 : 0 < atmosphere_density) (h3 : 0 < landing_lift_coefficient_max) :
    HasDerivAt (fun t => out_landing_ground_distance sea_level_density final_mass atmosphere_density wing_area t) (J_landing_ground_distance__landing_lift_coefficient_max sea_level_density final_mass atmosphere_density wing_area landing_lift_coefficient_max) landing_lift_coefficient_max := by
  simp only [out_landing_ground_distance, J_landing_ground_distance__landing_lift_coefficient_max, landing_distance, cl_app, rho_ratio]
  (apply hasDerivAt_of_eq; on_goal 1 => (repeat' comp_step))
  all_goals try comp_side
  all_goals try simp only [mul_zero, zero_mul, add_zero, zero_add, sub_zero, zero_sub, mul_one, one_mul]
  all_goals try push_cast
  all_goals comp_eq

theorem d_landing_initial_velocity__final_mass (final_mass atmosphere_density wing_area
    landing_lift_coefficient_max : ℝ) (h0 : 0 < atmosphere_density) (h1 : 0 < wing_area) (h2 : 0 <
    landing_lift_coefficient_max) (h3 : 0 < final_mass) :
    HasDerivAt (fun t => out_landing_initial_velocity t atmosphere_density wing_area landing_lift_coefficient_max) (J_landing_initial_velocity__final_mass final_mass atmosphere_density wing_area landing_lift_coefficient_max) final_mass := by
  simp only [out_landing_initial_velocity, J_landing_initial_velocity__final_mass, d_sqrt, v_app, cl_app]
  (apply hasDerivAt_of_eq; on_goal 1 => (repeat' comp_step))
  all_goals try comp_side
  all_goals try simp (disch := first | assumption | positivity) only [div_mul_eq_div_div, div_half, inv_half]
  all_goals try simp only [mul_zero, zero_mul, add_zero, zero_add, sub_zero, zero_sub, mul_one, one_mul]
  all_goals try push_cast
  all_goals comp_eq

theorem d_landing_initial_velocity__atmosphere_density (final_mass atmosphere_density wing_area
    landing_lift_coefficient_max : ℝ) (h0 : 0 < atmosphere_density) (h1 : 0 < wing_area) (h2 : 0 <
    landing_lift_coefficient_max) (h3 : 0 < final_mass) :
    HasDerivAt (fun t => out_landing_initial_velocity final_mass t wing_area landing_lift_coefficient_max) (J_landing_initial_velocity__atmosphere_density final_mass atmosphere_density wing_area landing_lift_coefficient_max) atmosphere_density := by
  simp only [out_landing_initial_velocity, J_landing_initial_velocity__atmosphere_density, d_sqrt, v_app, cl_app]
  (apply hasDerivAt_of_eq; on_goal 1 => (repeat' comp_step))
  all_goals try comp_side
  all_goals try simp (disch := first | assumption | positivity) only [div_mul_eq_div_div, div_half, inv_half]
  all_goals try simp only [mul_zero, zero_mul, add_zero, zero_add, sub_zero, zero_sub, mul_one, one_mul]
  all_goals try push_cast
  all_goals comp_eq

theorem d_landing_initial_velocity__wing_area (final_mass atmosphere_density wing_area
    landing_lift_coefficient_max : ℝ) (h0 : 0 < atmosphere_density) (h1 : 0 < wing_area) (h2 : 0 <
    landing_lift_coefficient_max) (h3 : 0 < final_mass) :
    HasDerivAt (fun t => out_landing_initial_velocity final_mass atmosphere_density t landing_lift_coefficient_max) (J_landing_initial_velocity__wing_area final_mass atmosphere_density wing_area landing_lift_coefficient_max) wing_area := by
  simp only [out_landing_initial_velocity, J_landing_initial_velocity__wing_area, d_sqrt, v_app, cl_app]
  (apply hasDerivAt_of_eq; on_goal 1 => (repeat' comp_step))
  all_goals try comp_side
  all_goals try simp (disch := first | assumption | positivity) only [div_mul_eq_div_div, div_half, inv_half]
  all_goals try simp only [mul_zero, zero_mul, add_zero, zero_add, sub_zero, zero_sub, mul_one, one_mul]
  all_goals try push_cast
  all_goals comp_eq

theorem d_landing_initial_velocity__landing_lift_coefficient_max (final_mass atmosphere_density
    wing_area landing_lift_coefficient_max : ℝ) (h0 : 0 < atmosphere_density) (h1 : 0 < wing_area)
    (h2 : 0 < landing_lift_coefficient_max) (h3 : 0 < final_mass) :
    HasDerivAt (fun t => out_landing_initial_velocity final_mass atmosphere_density wing_area t) (J_landing_initial_velocity__landing_lift_coefficient_max final_mass atmosphere_density wing_area landing_lift_coefficient_max) landing_lift_coefficient_max := by
  simp only [out_landing_initial_velocity, J_landing_initial_velocity__landing_lift_coefficient_max, d_sqrt, v_app, cl_app]
  (apply hasDerivAt_of_eq; on_goal 1 => (repeat' comp_step))
  all_goals try comp_side
  all_goals try simp (disch := first | assumption | positivity) only [div_mul_eq_div_div, div_half, inv_half]
  all_goals try simp only [mul_zero, zero_mul, add_zero, zero_add, sub_zero, zero_sub, mul_one, one_mul]
  all_goals try push_cast
  all_goals comp_eq

/-- Every partial derivative set by `LandingCalc` is the derivative of its output. -/
theorem partials (sea_level_density final_mass atmosphere_density wing_area
    landing_lift_coefficient_max : ℝ) (h0 : 0 < sea_level_density) (h1 : 0 < wing_area) (h2 : 0 <
    atmosphere_density) (h3 : 0 < landing_lift_coefficient_max) (h4 : 0 < final_mass) :
    HasDerivAt (fun t => out_landing_ground_distance sea_level_density t atmosphere_density wing_area
      landing_lift_coefficient_max) (J_landing_ground_distance__final_mass sea_level_density
      atmosphere_density wing_area landing_lift_coefficient_max) final_mass ∧
    HasDerivAt (fun t => out_landing_ground_distance sea_level_density final_mass t wing_area
      landing_lift_coefficient_max) (J_landing_ground_distance__atmosphere_density
      sea_level_density final_mass atmosphere_density wing_area landing_lift_coefficient_max)
      atmosphere_density ∧
    HasDerivAt (fun t => out_landing_ground_distance sea_level_density final_mass atmosphere_density t
      landing_lift_coefficient_max) (J_landing_ground_distance__wing_area sea_level_density
      final_mass atmosphere_density wing_area landing_lift_coefficient_max) wing_area ∧
    HasDerivAt (fun t => out_landing_ground_distance sea_level_density final_mass atmosphere_density
      wing_area t) (J_landing_ground_distance__landing_lift_coefficient_max sea_level_density
      final_mass atmosphere_density wing_area landing_lift_coefficient_max)
      landing_lift_coefficient_max ∧
    HasDerivAt (fun t => out_landing_initial_velocity t atmosphere_density wing_area
      landing_lift_coefficient_max) (J_landing_initial_velocity__final_mass final_mass
      atmosphere_density wing_area landing_lift_coefficient_max) final_mass ∧
    HasDerivAt (fun t => out_landing_initial_velocity final_mass t wing_area
      landing_lift_coefficient_max) (J_landing_initial_velocity__atmosphere_density final_mass
      atmosphere_density wing_area landing_lift_coefficient_max) atmosphere_density ∧
    HasDerivAt (fun t => out_landing_initial_velocity final_mass atmosphere_density t
      landing_lift_coefficient_max) (J_landing_initial_velocity__wing_area final_mass
      atmosphere_density wing_area landing_lift_coefficient_max) wing_area ∧
    HasDerivAt (fun t => out_landing_initial_velocity final_mass atmosphere_density wing_area t)
      (J_landing_initial_velocity__landing_lift_coefficient_max final_mass atmosphere_density
      wing_area landing_lift_coefficient_max) landing_lift_coefficient_max :=
  ⟨d_landing_ground_distance__final_mass _ _ _ _ _ h0 h1 h2 h3,
    d_landing_ground_distance__atmosphere_density _ _ _ _ _ h0 h1 h2 h3,
    d_landing_ground_distance__wing_area _ _ _ _ _ h0 h1 h2 h3,
    d_landing_ground_distance__landing_lift_coefficient_max _ _ _ _ _ h0 h1 h2 h3,
    d_landing_initial_velocity__final_mass _ _ _ _ h2 h1 h3 h4,
    d_landing_initial_velocity__atmosphere_density _ _ _ _ h2 h1 h3 h4,
    d_landing_initial_velocity__wing_area _ _ _ _ h2 h1 h3 h4,
    d_landing_initial_velocity__landing_lift_coefficient_max _ _ _ _ h2 h1 h3 h4⟩

example : ∃ sea_level_density final_mass atmosphere_density wing_area landing_lift_coefficient_max
      : ℝ,
      0 < sea_level_density ∧
      0 < wing_area ∧
      0 < atmosphere_density ∧
      0 < landing_lift_coefficient_max ∧
      0 < final_mass :=
  ⟨1, 1, 1, 1, 1, by comp_example, by comp_example, by comp_example, by comp_example, by
    comp_example⟩

end Verif.Comp.MissionEnergyStatePhasesSimplifiedLanding.LandingCalc

