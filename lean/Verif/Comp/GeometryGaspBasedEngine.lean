import Verif.Lemmas.CompDeriv

/-! # Partial derivatives of the components of `aviary/subsystems/geometry/gasp_based/engine.py`

One node of a vector component is modelled over the real numbers.  Each option that selects a
branch is fixed, one namespace per choice.  `out_x` is the output `x`, `J_x__y` the entry that
`compute_partials` (or `declare_partials` with `val`) assigns, `d_x__y` the proof that the entry is
the derivative.  Inputs an output does not take as argument have no influence on it. -/

set_option linter.all false

namespace Verif.Comp.GeometryGaspBasedEngine.GASPEngineDiameter
open Real

/-- aviary/subsystems/geometry/gasp_based/engine.py:215 -/
noncomputable def area_engine (engine_num_engines engine_inlet_area_coefficient design_gross_mass : ℝ) : ℝ :=
  (engine_inlet_area_coefficient * design_gross_mass) / engine_num_engines

/-- aviary/subsystems/geometry/gasp_based/engine.py:216 -/
noncomputable def diam_engine (engine_num_engines engine_inlet_area_coefficient design_gross_mass : ℝ) : ℝ :=
  sqrt ((4 * (area_engine engine_num_engines engine_inlet_area_coefficient design_gross_mass)) /
    π)

/-- aviary/subsystems/geometry/gasp_based/engine.py:217 -/
noncomputable def diam_nacelle (engine_num_engines engine_inlet_area_coefficient design_gross_mass nacelle_core_diameter_ratio : ℝ) : ℝ :=
  nacelle_core_diameter_ratio * (diam_engine engine_num_engines engine_inlet_area_coefficient
    design_gross_mass)

/-- aviary/subsystems/geometry/gasp_based/engine.py:232 -/
noncomputable def darea_engine_dgross_mass (engine_num_engines engine_inlet_area_coefficient : ℝ) : ℝ :=
  engine_inlet_area_coefficient / engine_num_engines

/-- aviary/subsystems/geometry/gasp_based/engine.py:233 -/
noncomputable def ddiam_engine_dgross_mass (engine_num_engines engine_inlet_area_coefficient design_gross_mass : ℝ) : ℝ :=
  ((2 / π) / (diam_engine engine_num_engines engine_inlet_area_coefficient design_gross_mass)) *
    (darea_engine_dgross_mass engine_num_engines engine_inlet_area_coefficient)

/-- aviary/subsystems/geometry/gasp_based/engine.py:234 -/
noncomputable def ddiam_nacelle_dgross_mass (engine_num_engines engine_inlet_area_coefficient design_gross_mass nacelle_core_diameter_ratio : ℝ) : ℝ :=
  nacelle_core_diameter_ratio * (ddiam_engine_dgross_mass engine_num_engines
    engine_inlet_area_coefficient design_gross_mass)

/-- aviary/subsystems/geometry/gasp_based/engine.py:237 -/
noncomputable def ddiam_nacelle_dcoeff_inlet (engine_num_engines engine_inlet_area_coefficient design_gross_mass nacelle_core_diameter_ratio : ℝ) : ℝ :=
  ((((nacelle_core_diameter_ratio * 2) / (diam_engine engine_num_engines
    engine_inlet_area_coefficient design_gross_mass)) * design_gross_mass) / engine_num_engines)
    / π

/-- Output `nacelle_avg_diameter` of `GASPEngineDiameter.compute`, aviary/subsystems/geometry/gasp_based/engine.py:219 -/
noncomputable def out_nacelle_avg_diameter (engine_num_engines engine_inlet_area_coefficient design_gross_mass nacelle_core_diameter_ratio : ℝ) : ℝ :=
  diam_nacelle engine_num_engines engine_inlet_area_coefficient design_gross_mass
    nacelle_core_diameter_ratio

/-- Partial of `nacelle_avg_diameter` with respect to `design_gross_mass` as set by `GASPEngineDiameter`, aviary/subsystems/geometry/gasp_based/engine.py:241 -/
noncomputable def J_nacelle_avg_diameter__design_gross_mass (engine_num_engines engine_inlet_area_coefficient design_gross_mass nacelle_core_diameter_ratio : ℝ) : ℝ :=
  ddiam_nacelle_dgross_mass engine_num_engines engine_inlet_area_coefficient design_gross_mass
    nacelle_core_diameter_ratio

/-- Partial of `nacelle_avg_diameter` with respect to `nacelle_core_diameter_ratio` as set by `GASPEngineDiameter`, aviary/subsystems/geometry/gasp_based/engine.py:242 -/
noncomputable def J_nacelle_avg_diameter__nacelle_core_diameter_ratio (engine_num_engines engine_inlet_area_coefficient design_gross_mass : ℝ) : ℝ :=
  diam_engine engine_num_engines engine_inlet_area_coefficient design_gross_mass

/-- Partial of `nacelle_avg_diameter` with respect to `engine_inlet_area_coefficient` as set by `GASPEngineDiameter`, aviary/subsystems/geometry/gasp_based/engine.py:245 -/
noncomputable def J_nacelle_avg_diameter__engine_inlet_area_coefficient (engine_num_engines engine_inlet_area_coefficient design_gross_mass nacelle_core_diameter_ratio : ℝ) : ℝ :=
  ddiam_nacelle_dcoeff_inlet engine_num_engines engine_inlet_area_coefficient design_gross_mass
    nacelle_core_diameter_ratio

theorem d_nacelle_avg_diameter__engine_inlet_area_coefficient (engine_num_engines
    engine_inlet_area_coefficient design_gross_mass nacelle_core_diameter_ratio : ℝ) (h0 : 0 <
    engine_num_engines) (h1 : 0 < engine_inlet_area_coefficient) (h2 : 0 < design_gross_mass) :
    HasDerivAt (fun t => out_nacelle_avg_diameter engine_num_engines t design_gross_mass nacelle_core_diameter_ratio) (J_nacelle_avg_diameter__engine_inlet_area_coefficient engine_num_engines engine_inlet_area_coefficient design_gross_mass nacelle_core_diameter_ratio) engine_inlet_area_coefficient := by
  simp only [out_nacelle_avg_diameter, J_nacelle_avg_diameter__engine_inlet_area_coefficient, ddiam_nacelle_dcoeff_inlet, diam_nacelle, diam_engine, area_engine, sqrt_eq_rpow]
  (apply hasDerivAt_of_eq; on_goal 1 => (repeat' comp_step))
  all_goals try comp_side
  all_goals try simp (disch := first | assumption | positivity) only [div_mul_eq_div_div, div_half, inv_half]
  all_goals try simp only [mul_zero, zero_mul, add_zero, zero_add, sub_zero, zero_sub, mul_one, one_mul]
  all_goals try push_cast
  all_goals comp_eq

theorem d_nacelle_avg_diameter__design_gross_mass (engine_num_engines
    engine_inlet_area_coefficient design_gross_mass nacelle_core_diameter_ratio : ℝ) (h0 : 0 <
    engine_num_engines) (h1 : 0 < engine_inlet_area_coefficient) (h2 : 0 < design_gross_mass) :
    HasDerivAt (fun t => out_nacelle_avg_diameter engine_num_engines engine_inlet_area_coefficient t nacelle_core_diameter_ratio) (J_nacelle_avg_diameter__design_gross_mass engine_num_engines engine_inlet_area_coefficient design_gross_mass nacelle_core_diameter_ratio) design_gross_mass := by
  simp only [out_nacelle_avg_diameter, J_nacelle_avg_diameter__design_gross_mass, ddiam_nacelle_dgross_mass, ddiam_engine_dgross_mass, darea_engine_dgross_mass, diam_nacelle, diam_engine, area_engine, sqrt_eq_rpow]
  (apply hasDerivAt_of_eq; on_goal 1 => (repeat' comp_step))
  all_goals try comp_side
  all_goals try simp (disch := first | assumption | positivity) only [div_mul_eq_div_div, div_half, inv_half]
  all_goals try simp only [mul_zero, zero_mul, add_zero, zero_add, sub_zero, zero_sub, mul_one, one_mul]
  all_goals try push_cast
  all_goals comp_eq

theorem d_nacelle_avg_diameter__nacelle_core_diameter_ratio (engine_num_engines
    engine_inlet_area_coefficient design_gross_mass nacelle_core_diameter_ratio : ℝ) (h0 : 0 <
    engine_num_engines) (h1 : 0 < engine_inlet_area_coefficient) (h2 : 0 < design_gross_mass) :
    HasDerivAt (fun t => out_nacelle_avg_diameter engine_num_engines engine_inlet_area_coefficient design_gross_mass t) (J_nacelle_avg_diameter__nacelle_core_diameter_ratio engine_num_engines engine_inlet_area_coefficient design_gross_mass) nacelle_core_diameter_ratio := by
  simp only [out_nacelle_avg_diameter, J_nacelle_avg_diameter__nacelle_core_diameter_ratio, diam_nacelle, diam_engine, area_engine, sqrt_eq_rpow]
  (apply hasDerivAt_of_eq; on_goal 1 => (repeat' comp_step))
  all_goals try comp_side
  all_goals try simp (disch := first | assumption | positivity) only [div_mul_eq_div_div, div_half, inv_half]
  all_goals try simp only [mul_zero, zero_mul, add_zero, zero_add, sub_zero, zero_sub, mul_one, one_mul]
  all_goals try push_cast
  all_goals comp_eq

/-- Every partial derivative set by `GASPEngineDiameter` is the derivative of its output. -/
theorem partials (engine_num_engines engine_inlet_area_coefficient design_gross_mass
    nacelle_core_diameter_ratio : ℝ) (h0 : 0 < engine_num_engines) (h1 : 0 <
    engine_inlet_area_coefficient) (h2 : 0 < design_gross_mass) :
    HasDerivAt (fun t => out_nacelle_avg_diameter engine_num_engines t design_gross_mass
      nacelle_core_diameter_ratio) (J_nacelle_avg_diameter__engine_inlet_area_coefficient
      engine_num_engines engine_inlet_area_coefficient design_gross_mass
      nacelle_core_diameter_ratio) engine_inlet_area_coefficient ∧
    HasDerivAt (fun t => out_nacelle_avg_diameter engine_num_engines engine_inlet_area_coefficient t
      nacelle_core_diameter_ratio) (J_nacelle_avg_diameter__design_gross_mass engine_num_engines
      engine_inlet_area_coefficient design_gross_mass nacelle_core_diameter_ratio)
      design_gross_mass ∧
    HasDerivAt (fun t => out_nacelle_avg_diameter engine_num_engines engine_inlet_area_coefficient
      design_gross_mass t) (J_nacelle_avg_diameter__nacelle_core_diameter_ratio engine_num_engines
      engine_inlet_area_coefficient design_gross_mass) nacelle_core_diameter_ratio :=
  ⟨d_nacelle_avg_diameter__engine_inlet_area_coefficient _ _ _ _ h0 h1 h2,
    d_nacelle_avg_diameter__design_gross_mass _ _ _ _ h0 h1 h2,
    d_nacelle_avg_diameter__nacelle_core_diameter_ratio _ _ _ _ h0 h1 h2⟩

example : ∃ engine_num_engines engine_inlet_area_coefficient design_gross_mass
      nacelle_core_diameter_ratio : ℝ,
      0 < engine_num_engines ∧
      0 < engine_inlet_area_coefficient ∧
      0 < design_gross_mass :=
  ⟨1, 1, 1, 0, by comp_example, by comp_example, by comp_example⟩

end Verif.Comp.GeometryGaspBasedEngine.GASPEngineDiameter

namespace Verif.Comp.GeometryGaspBasedEngine.GASPEngineLength
open Real

/-- aviary/subsystems/geometry/gasp_based/engine.py:290 -/
noncomputable def len_nacelle (nacelle_fineness nacelle_avg_diameter : ℝ) : ℝ :=
  nacelle_fineness * nacelle_avg_diameter

/-- Output `nacelle_avg_length` of `GASPEngineLength.compute`, aviary/subsystems/geometry/gasp_based/engine.py:292 -/
noncomputable def out_nacelle_avg_length (nacelle_fineness nacelle_avg_diameter : ℝ) : ℝ :=
  len_nacelle nacelle_fineness nacelle_avg_diameter

/-- Partial of `nacelle_avg_length` with respect to `nacelle_avg_diameter` as set by `GASPEngineLength`, aviary/subsystems/geometry/gasp_based/engine.py:298 -/
noncomputable def J_nacelle_avg_length__nacelle_avg_diameter (nacelle_fineness : ℝ) : ℝ :=
  nacelle_fineness

/-- Partial of `nacelle_avg_length` with respect to `nacelle_fineness` as set by `GASPEngineLength`, aviary/subsystems/geometry/gasp_based/engine.py:299 -/
noncomputable def J_nacelle_avg_length__nacelle_fineness (nacelle_avg_diameter : ℝ) : ℝ :=
  nacelle_avg_diameter

theorem d_nacelle_avg_length__nacelle_fineness (nacelle_fineness nacelle_avg_diameter : ℝ)  :
    HasDerivAt (fun t => out_nacelle_avg_length t nacelle_avg_diameter) (J_nacelle_avg_length__nacelle_fineness nacelle_avg_diameter) nacelle_fineness := by
  simp only [out_nacelle_avg_length, J_nacelle_avg_length__nacelle_fineness, len_nacelle]
  (apply hasDerivAt_of_eq; on_goal 1 => (repeat' comp_step))
  all_goals try comp_side
  all_goals try simp only [mul_zero, zero_mul, add_zero, zero_add, sub_zero, zero_sub, mul_one, one_mul]
  all_goals try push_cast
  all_goals comp_eq

theorem d_nacelle_avg_length__nacelle_avg_diameter (nacelle_fineness nacelle_avg_diameter : ℝ)  :
    HasDerivAt (fun t => out_nacelle_avg_length nacelle_fineness t) (J_nacelle_avg_length__nacelle_avg_diameter nacelle_fineness) nacelle_avg_diameter := by
  simp only [out_nacelle_avg_length, J_nacelle_avg_length__nacelle_avg_diameter, len_nacelle]
  (apply hasDerivAt_of_eq; on_goal 1 => (repeat' comp_step))
  all_goals try comp_side
  all_goals try simp only [mul_zero, zero_mul, add_zero, zero_add, sub_zero, zero_sub, mul_one, one_mul]
  all_goals try push_cast
  all_goals comp_eq

/-- Every partial derivative set by `GASPEngineLength` is the derivative of its output. -/
theorem partials (nacelle_fineness nacelle_avg_diameter : ℝ) :
    HasDerivAt (fun t => out_nacelle_avg_length t nacelle_avg_diameter)
      (J_nacelle_avg_length__nacelle_fineness nacelle_avg_diameter) nacelle_fineness ∧
    HasDerivAt (fun t => out_nacelle_avg_length nacelle_fineness t)
      (J_nacelle_avg_length__nacelle_avg_diameter nacelle_fineness) nacelle_avg_diameter :=
  ⟨d_nacelle_avg_length__nacelle_fineness _ _, d_nacelle_avg_length__nacelle_avg_diameter _ _⟩

end Verif.Comp.GeometryGaspBasedEngine.GASPEngineLength

namespace Verif.Comp.GeometryGaspBasedEngine.GASPEngineSurfaceArea
open Real

/-- aviary/subsystems/geometry/gasp_based/engine.py:340 -/
noncomputable def wet_area_nacelle (percent_exposed nacelle_avg_diameter nacelle_avg_length : ℝ) : ℝ :=
  ((π * nacelle_avg_diameter) * nacelle_avg_length) * percent_exposed

/-- Output `nacelle_surface_area` of `GASPEngineSurfaceArea.compute`, aviary/subsystems/geometry/gasp_based/engine.py:342 -/
noncomputable def out_nacelle_surface_area (percent_exposed nacelle_avg_diameter nacelle_avg_length : ℝ) : ℝ :=
  wet_area_nacelle percent_exposed nacelle_avg_diameter nacelle_avg_length

/-- Partial of `nacelle_surface_area` with respect to `nacelle_avg_diameter` as set by `GASPEngineSurfaceArea`, aviary/subsystems/geometry/gasp_based/engine.py:349 -/
noncomputable def J_nacelle_surface_area__nacelle_avg_diameter (percent_exposed nacelle_avg_length : ℝ) : ℝ :=
  (π * nacelle_avg_length) * percent_exposed

/-- Partial of `nacelle_surface_area` with respect to `nacelle_avg_length` as set by `GASPEngineSurfaceArea`, aviary/subsystems/geometry/gasp_based/engine.py:352 -/
noncomputable def J_nacelle_surface_area__nacelle_avg_length (percent_exposed nacelle_avg_diameter : ℝ) : ℝ :=
  (π * nacelle_avg_diameter) * percent_exposed

/-- Partial of `nacelle_surface_area` with respect to `percent_exposed` as set by `GASPEngineSurfaceArea`, aviary/subsystems/geometry/gasp_based/engine.py:355 -/
noncomputable def J_nacelle_surface_area__percent_exposed (nacelle_avg_diameter nacelle_avg_length : ℝ) : ℝ :=
  (π * nacelle_avg_diameter) * nacelle_avg_length

theorem d_nacelle_surface_area__percent_exposed (percent_exposed nacelle_avg_diameter
    nacelle_avg_length : ℝ)  :
    HasDerivAt (fun t => out_nacelle_surface_area t nacelle_avg_diameter nacelle_avg_length) (J_nacelle_surface_area__percent_exposed nacelle_avg_diameter nacelle_avg_length) percent_exposed := by
  simp only [out_nacelle_surface_area, J_nacelle_surface_area__percent_exposed, wet_area_nacelle]
  (apply hasDerivAt_of_eq; on_goal 1 => (repeat' comp_step))
  all_goals try comp_side
  all_goals try simp only [mul_zero, zero_mul, add_zero, zero_add, sub_zero, zero_sub, mul_one, one_mul]
  all_goals try push_cast
  all_goals comp_eq

theorem d_nacelle_surface_area__nacelle_avg_diameter (percent_exposed nacelle_avg_diameter
    nacelle_avg_length : ℝ)  :
    HasDerivAt (fun t => out_nacelle_surface_area percent_exposed t nacelle_avg_length) (J_nacelle_surface_area__nacelle_avg_diameter percent_exposed nacelle_avg_length) nacelle_avg_diameter := by
  simp only [out_nacelle_surface_area, J_nacelle_surface_area__nacelle_avg_diameter, wet_area_nacelle]
  (apply hasDerivAt_of_eq; on_goal 1 => (repeat' comp_step))
  all_goals try comp_side
  all_goals try simp only [mul_zero, zero_mul, add_zero, zero_add, sub_zero, zero_sub, mul_one, one_mul]
  all_goals try push_cast
  all_goals comp_eq

theorem d_nacelle_surface_area__nacelle_avg_length (percent_exposed nacelle_avg_diameter
    nacelle_avg_length : ℝ)  :
    HasDerivAt (fun t => out_nacelle_surface_area percent_exposed nacelle_avg_diameter t) (J_nacelle_surface_area__nacelle_avg_length percent_exposed nacelle_avg_diameter) nacelle_avg_length := by
  simp only [out_nacelle_surface_area, J_nacelle_surface_area__nacelle_avg_length, wet_area_nacelle]
  (apply hasDerivAt_of_eq; on_goal 1 => (repeat' comp_step))
  all_goals try comp_side
  all_goals try simp only [mul_zero, zero_mul, add_zero, zero_add, sub_zero, zero_sub, mul_one, one_mul]
  all_goals try push_cast
  all_goals comp_eq

/-- Every partial derivative set by `GASPEngineSurfaceArea` is the derivative of its output. -/
theorem partials (percent_exposed nacelle_avg_diameter nacelle_avg_length : ℝ) :
    HasDerivAt (fun t => out_nacelle_surface_area t nacelle_avg_diameter nacelle_avg_length)
      (J_nacelle_surface_area__percent_exposed nacelle_avg_diameter nacelle_avg_length)
      percent_exposed ∧
    HasDerivAt (fun t => out_nacelle_surface_area percent_exposed t nacelle_avg_length)
      (J_nacelle_surface_area__nacelle_avg_diameter percent_exposed nacelle_avg_length)
      nacelle_avg_diameter ∧
    HasDerivAt (fun t => out_nacelle_surface_area percent_exposed nacelle_avg_diameter t)
      (J_nacelle_surface_area__nacelle_avg_length percent_exposed nacelle_avg_diameter)
      nacelle_avg_length :=
  ⟨d_nacelle_surface_area__percent_exposed _ _ _, d_nacelle_surface_area__nacelle_avg_diameter _ _
    _, d_nacelle_surface_area__nacelle_avg_length _ _ _⟩

end Verif.Comp.GeometryGaspBasedEngine.GASPEngineSurfaceArea

