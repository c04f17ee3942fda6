import Verif.Lemmas.CompDeriv

/-! # Partial derivatives of the components of `aviary/subsystems/aerodynamics/flops_based/premission_aero.py`

One node of a vector component is modelled over the real numbers.  Each option that selects a
branch is fixed, one namespace per choice.  `out_x` is the output `x`, `J_x__y` the entry that
`compute_partials` (or `declare_partials` with `val`) assigns, `d_x__y` the proof that the entry is
the derivative.  Inputs an output does not take as argument have no influence on it. -/

set_option linter.all false

namespace Verif.Comp.AerodynamicsFlopsBasedPremissionAero.TakeoffLoverD
open Real

/-- aviary/subsystems/aerodynamics/flops_based/premission_aero.py:277 -/
noncomputable def cl (takeoff_lift_coefficient_max : ℝ) : ℝ :=
  (33 / 50) * takeoff_lift_coefficient_max

/-- aviary/subsystems/aerodynamics/flops_based/premission_aero.py:278 -/
noncomputable def cd (wing_aspect_ratio takeoff_lift_coefficient_max : ℝ) : ℝ :=
  (3 / 200) + (((cl takeoff_lift_coefficient_max) ^ 2) / (((3 / 5) * π) * wing_aspect_ratio))

/-- aviary/subsystems/aerodynamics/flops_based/premission_aero.py:279 -/
noncomputable def l_over_d (wing_aspect_ratio takeoff_lift_coefficient_max : ℝ) : ℝ :=
  (cl takeoff_lift_coefficient_max) / (cd wing_aspect_ratio takeoff_lift_coefficient_max)

/-- aviary/subsystems/aerodynamics/flops_based/premission_aero.py:293 -/
noncomputable def dcd_dcl (wing_aspect_ratio takeoff_lift_coefficient_max : ℝ) : ℝ :=
  (2 * (cl takeoff_lift_coefficient_max)) / (((3 / 5) * π) * wing_aspect_ratio)

/-- aviary/subsystems/aerodynamics/flops_based/premission_aero.py:294 -/
noncomputable def dcd_dar (wing_aspect_ratio takeoff_lift_coefficient_max : ℝ) : ℝ :=
  (-((cl takeoff_lift_coefficient_max) ^ 2)) / (((3 / 5) * π) * (wing_aspect_ratio ^ 2))

/-- aviary/subsystems/aerodynamics/flops_based/premission_aero.py:296 -/
noncomputable def dloverd_dcl (wing_aspect_ratio takeoff_lift_coefficient_max : ℝ) : ℝ :=
  1 / (cd wing_aspect_ratio takeoff_lift_coefficient_max)

/-- aviary/subsystems/aerodynamics/flops_based/premission_aero.py:297 -/
noncomputable def dloverd_dcd (wing_aspect_ratio takeoff_lift_coefficient_max : ℝ) : ℝ :=
  (-(cl takeoff_lift_coefficient_max)) / ((cd wing_aspect_ratio takeoff_lift_coefficient_max) ^
    2)

/-- aviary/subsystems/aerodynamics/flops_based/premission_aero.py:300 -/
noncomputable def dloverd_dar (wing_aspect_ratio takeoff_lift_coefficient_max : ℝ) : ℝ :=
  (dloverd_dcd wing_aspect_ratio takeoff_lift_coefficient_max) * (dcd_dar wing_aspect_ratio
    takeoff_lift_coefficient_max)

/-- aviary/subsystems/aerodynamics/flops_based/premission_aero.py:303 -/
noncomputable def dloverd_dclmax (wing_aspect_ratio takeoff_lift_coefficient_max : ℝ) : ℝ :=
  ((dloverd_dcl wing_aspect_ratio takeoff_lift_coefficient_max) + ((dloverd_dcd
    wing_aspect_ratio takeoff_lift_coefficient_max) * (dcd_dcl wing_aspect_ratio
    takeoff_lift_coefficient_max))) * (33 / 50)

/-- Output `takeoff_lift_over_drag` of `TakeoffLoverD.compute`, aviary/subsystems/aerodynamics/flops_based/premission_aero.py:281 -/
noncomputable def out_takeoff_lift_over_drag (wing_aspect_ratio takeoff_lift_coefficient_max : ℝ) : ℝ :=
  l_over_d wing_aspect_ratio takeoff_lift_coefficient_max

/-- Partial of `takeoff_lift_over_drag` with respect to `wing_aspect_ratio` as set by `TakeoffLoverD`, aviary/subsystems/aerodynamics/flops_based/premission_aero.py:306 -/
noncomputable def J_takeoff_lift_over_drag__wing_aspect_ratio (wing_aspect_ratio takeoff_lift_coefficient_max : ℝ) : ℝ :=
  dloverd_dar wing_aspect_ratio takeoff_lift_coefficient_max

/-- Partial of `takeoff_lift_over_drag` with respect to `takeoff_lift_coefficient_max` as set by `TakeoffLoverD`, aviary/subsystems/aerodynamics/flops_based/premission_aero.py:307 -/
noncomputable def J_takeoff_lift_over_drag__takeoff_lift_coefficient_max (wing_aspect_ratio takeoff_lift_coefficient_max : ℝ) : ℝ :=
  dloverd_dclmax wing_aspect_ratio takeoff_lift_coefficient_max

theorem d_takeoff_lift_over_drag__wing_aspect_ratio (wing_aspect_ratio
    takeoff_lift_coefficient_max : ℝ) (h0 : 0 < wing_aspect_ratio) (h1 : 0 <
    takeoff_lift_coefficient_max) :
    HasDerivAt (fun t => out_takeoff_lift_over_drag t takeoff_lift_coefficient_max) (J_takeoff_lift_over_drag__wing_aspect_ratio wing_aspect_ratio takeoff_lift_coefficient_max) wing_aspect_ratio := by
  simp only [out_takeoff_lift_over_drag, J_takeoff_lift_over_drag__wing_aspect_ratio, dloverd_dar, dcd_dar, dloverd_dcd, l_over_d, cd, cl]
  (apply hasDerivAt_of_eq; on_goal 1 => (repeat' comp_step))
  all_goals try comp_side
  all_goals try simp only [mul_zero, zero_mul, add_zero, zero_add, sub_zero, zero_sub, mul_one, one_mul]
  all_goals try push_cast
  all_goals comp_eq

theorem d_takeoff_lift_over_drag__takeoff_lift_coefficient_max (wing_aspect_ratio
    takeoff_lift_coefficient_max : ℝ) (h0 : 0 < wing_aspect_ratio) (h1 : 0 <
    takeoff_lift_coefficient_max) :
    HasDerivAt (fun t => out_takeoff_lift_over_drag wing_aspect_ratio t) (J_takeoff_lift_over_drag__takeoff_lift_coefficient_max wing_aspect_ratio takeoff_lift_coefficient_max) takeoff_lift_coefficient_max := by
  simp only [out_takeoff_lift_over_drag, J_takeoff_lift_over_drag__takeoff_lift_coefficient_max, dloverd_dclmax, dcd_dcl, dloverd_dcd, dloverd_dcl, l_over_d, cd, cl]
  (apply hasDerivAt_of_eq; on_goal 1 => (repeat' comp_step))
  all_goals try comp_side
  all_goals try simp only [mul_zero, zero_mul, add_zero, zero_add, sub_zero, zero_sub, mul_one, one_mul]
  all_goals try push_cast
  all_goals comp_eq

/-- Every partial derivative set by `TakeoffLoverD` is the derivative of its output. -/
theorem partials (wing_aspect_ratio takeoff_lift_coefficient_max : ℝ) (h0 : 0 < wing_aspect_ratio)
    (h1 : 0 < takeoff_lift_coefficient_max) :
    HasDerivAt (fun t => out_takeoff_lift_over_drag t takeoff_lift_coefficient_max)
      (J_takeoff_lift_over_drag__wing_aspect_ratio wing_aspect_ratio takeoff_lift_coefficient_max)
      wing_aspect_ratio ∧
    HasDerivAt (fun t => out_takeoff_lift_over_drag wing_aspect_ratio t)
      (J_takeoff_lift_over_drag__takeoff_lift_coefficient_max wing_aspect_ratio
      takeoff_lift_coefficient_max) takeoff_lift_coefficient_max :=
  ⟨d_takeoff_lift_over_drag__wing_aspect_ratio _ _ h0 h1,
    d_takeoff_lift_over_drag__takeoff_lift_coefficient_max _ _ h0 h1⟩

example : ∃ wing_aspect_ratio takeoff_lift_coefficient_max : ℝ,
      0 < wing_aspect_ratio ∧
      0 < takeoff_lift_coefficient_max :=
  ⟨1, 1, by comp_example, by comp_example⟩

end Verif.Comp.AerodynamicsFlopsBasedPremissionAero.TakeoffLoverD

