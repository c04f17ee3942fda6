import Verif.Lemmas.CompDeriv

/-! # Partial derivatives of the components of `aviary/subsystems/mass/flops_based/surface_controls.py`

One node of a vector component is modelled over the real numbers.  Each option that selects a
branch is fixed, one namespace per choice.  `out_x` is the output `x`, `J_x__y` the entry that
`compute_partials` (or `declare_partials` with `val`) assigns, `d_x__y` the proof that the entry is
the derivative.  Inputs an output does not take as argument have no influence on it. -/

set_option linter.all false

namespace Verif.Comp.MassFlopsBasedSurfaceControls.AltSurfaceControlMass
open Real

/-- aviary/subsystems/mass/flops_based/surface_controls.py:124 -/
noncomputable def surface_ctrls_wt (wing_surface_control_mass_scaler wing_area horizontaltail_wetted_area horizontaltail_thickness_to_chord verticaltail_area : ℝ) : ℝ :=
  (((480 + ((99 / 100) * wing_area)) + (((5 / 2) * horizontaltail_wetted_area) / (2 + ((387 /
    1000) * horizontaltail_thickness_to_chord)))) + ((8 / 5) * verticaltail_area)) *
    wing_surface_control_mass_scaler

/-- Output `wing_surface_control_mass` of `AltSurfaceControlMass.compute`, aviary/subsystems/mass/flops_based/surface_controls.py:128 -/
noncomputable def out_wing_surface_control_mass (wing_surface_control_mass_scaler wing_area horizontaltail_wetted_area horizontaltail_thickness_to_chord verticaltail_area : ℝ) : ℝ :=
  surface_ctrls_wt wing_surface_control_mass_scaler wing_area horizontaltail_wetted_area
    horizontaltail_thickness_to_chord verticaltail_area

/-- Output `wing_control_surface_area` of `AltSurfaceControlMass.compute`, aviary/subsystems/mass/flops_based/surface_controls.py:130 -/
noncomputable def out_wing_control_surface_area (wing_area wing_control_surface_area_ratio : ℝ) : ℝ :=
  wing_control_surface_area_ratio * wing_area

/-- Partial of `wing_surface_control_mass` with respect to `wing_surface_control_mass_scaler` as set by `AltSurfaceControlMass`, aviary/subsystems/mass/flops_based/surface_controls.py:140 -/
noncomputable def J_wing_surface_control_mass__wing_surface_control_mass_scaler (wing_area horizontaltail_wetted_area horizontaltail_thickness_to_chord verticaltail_area : ℝ) : ℝ :=
  ((480 + ((99 / 100) * wing_area)) + (((5 / 2) * horizontaltail_wetted_area) / (2 + ((387 /
    1000) * horizontaltail_thickness_to_chord)))) + ((8 / 5) * verticaltail_area)

/-- Partial of `wing_surface_control_mass` with respect to `wing_area` as set by `AltSurfaceControlMass`, aviary/subsystems/mass/flops_based/surface_controls.py:144 -/
noncomputable def J_wing_surface_control_mass__wing_area (wing_surface_control_mass_scaler : ℝ) : ℝ :=
  (99 / 100) * wing_surface_control_mass_scaler

/-- Partial of `wing_surface_control_mass` with respect to `horizontaltail_wetted_area` as set by `AltSurfaceControlMass`, aviary/subsystems/mass/flops_based/surface_controls.py:145 -/
noncomputable def J_wing_surface_control_mass__horizontaltail_wetted_area (wing_surface_control_mass_scaler horizontaltail_thickness_to_chord : ℝ) : ℝ :=
  ((5 / 2) / (2 + ((387 / 1000) * horizontaltail_thickness_to_chord))) *
    wing_surface_control_mass_scaler

/-- Partial of `wing_surface_control_mass` with respect to `horizontaltail_thickness_to_chord` as set by `AltSurfaceControlMass`, aviary/subsystems/mass/flops_based/surface_controls.py:149 -/
noncomputable def J_wing_surface_control_mass__horizontaltail_thickness_to_chord (wing_surface_control_mass_scaler horizontaltail_wetted_area horizontaltail_thickness_to_chord : ℝ) : ℝ :=
  ((((-(5 / 2)) * horizontaltail_wetted_area) / ((2 + ((387 / 1000) *
    horizontaltail_thickness_to_chord)) ^ 2)) * (387 / 1000)) * wing_surface_control_mass_scaler

/-- Partial of `wing_surface_control_mass` with respect to `verticaltail_area` as set by `AltSurfaceControlMass`, aviary/subsystems/mass/flops_based/surface_controls.py:153 -/
noncomputable def J_wing_surface_control_mass__verticaltail_area (wing_surface_control_mass_scaler : ℝ) : ℝ :=
  (8 / 5) * wing_surface_control_mass_scaler

/-- Partial of `wing_control_surface_area` with respect to `wing_control_surface_area_ratio` as set by `AltSurfaceControlMass`, aviary/subsystems/mass/flops_based/surface_controls.py:157 -/
noncomputable def J_wing_control_surface_area__wing_control_surface_area_ratio (wing_area : ℝ) : ℝ :=
  wing_area

/-- Partial of `wing_control_surface_area` with respect to `wing_area` as set by `AltSurfaceControlMass`, aviary/subsystems/mass/flops_based/surface_controls.py:159 -/
noncomputable def J_wing_control_surface_area__wing_area (wing_control_surface_area_ratio : ℝ) : ℝ :=
  wing_control_surface_area_ratio

theorem d_wing_surface_control_mass__wing_surface_control_mass_scaler
    (wing_surface_control_mass_scaler wing_area horizontaltail_wetted_area
    horizontaltail_thickness_to_chord verticaltail_area : ℝ) (h0 : 0 <
    horizontaltail_thickness_to_chord) :
    HasDerivAt (fun t => out_wing_surface_control_mass t wing_area horizontaltail_wetted_area horizontaltail_thickness_to_chord verticaltail_area) (J_wing_surface_control_mass__wing_surface_control_mass_scaler wing_area horizontaltail_wetted_area horizontaltail_thickness_to_chord verticaltail_area) wing_surface_control_mass_scaler := by
  simp only [out_wing_surface_control_mass, J_wing_surface_control_mass__wing_surface_control_mass_scaler, surface_ctrls_wt]
  (apply hasDerivAt_of_eq; on_goal 1 => (repeat' comp_step))
  all_goals try comp_side
  all_goals try simp only [mul_zero, zero_mul, add_zero, zero_add, sub_zero, zero_sub, mul_one, one_mul]
  all_goals try push_cast
  all_goals comp_eq

theorem d_wing_surface_control_mass__wing_area (wing_surface_control_mass_scaler wing_area
    horizontaltail_wetted_area horizontaltail_thickness_to_chord verticaltail_area : ℝ) (h0 : 0 <
    horizontaltail_thickness_to_chord) :
    HasDerivAt (fun t => out_wing_surface_control_mass wing_surface_control_mass_scaler t horizontaltail_wetted_area horizontaltail_thickness_to_chord verticaltail_area) (J_wing_surface_control_mass__wing_area wing_surface_control_mass_scaler) wing_area := by
  simp only [out_wing_surface_control_mass, J_wing_surface_control_mass__wing_area, surface_ctrls_wt]
  (apply hasDerivAt_of_eq; on_goal 1 => (repeat' comp_step))
  all_goals try comp_side
  all_goals try simp only [mul_zero, zero_mul, add_zero, zero_add, sub_zero, zero_sub, mul_one, one_mul]
  all_goals try push_cast
  all_goals comp_eq

theorem d_wing_surface_control_mass__horizontaltail_wetted_area (wing_surface_control_mass_scaler
    wing_area horizontaltail_wetted_area horizontaltail_thickness_to_chord verticaltail_area : ℝ)
    (h0 : 0 < horizontaltail_thickness_to_chord) :
    HasDerivAt (fun t => out_wing_surface_control_mass wing_surface_control_mass_scaler wing_area t horizontaltail_thickness_to_chord verticaltail_area) (J_wing_surface_control_mass__horizontaltail_wetted_area wing_surface_control_mass_scaler horizontaltail_thickness_to_chord) horizontaltail_wetted_area := by
  simp only [out_wing_surface_control_mass, J_wing_surface_control_mass__horizontaltail_wetted_area, surface_ctrls_wt]
  (apply hasDerivAt_of_eq; on_goal 1 => (repeat' comp_step))
  all_goals try comp_side
  all_goals try simp only [mul_zero, zero_mul, add_zero, zero_add, sub_zero, zero_sub, mul_one, one_mul]
  all_goals try push_cast
  all_goals comp_eq

theorem d_wing_surface_control_mass__horizontaltail_thickness_to_chord
    (wing_surface_control_mass_scaler wing_area horizontaltail_wetted_area
    horizontaltail_thickness_to_chord verticaltail_area : ℝ) (h0 : 0 <
    horizontaltail_thickness_to_chord) :
    HasDerivAt (fun t => out_wing_surface_control_mass wing_surface_control_mass_scaler wing_area horizontaltail_wetted_area t verticaltail_area) (J_wing_surface_control_mass__horizontaltail_thickness_to_chord wing_surface_control_mass_scaler horizontaltail_wetted_area horizontaltail_thickness_to_chord) horizontaltail_thickness_to_chord := by
  simp only [out_wing_surface_control_mass, J_wing_surface_control_mass__horizontaltail_thickness_to_chord, surface_ctrls_wt]
  (apply hasDerivAt_of_eq; on_goal 1 => (repeat' comp_step))
  all_goals try comp_side
  all_goals try simp only [mul_zero, zero_mul, add_zero, zero_add, sub_zero, zero_sub, mul_one, one_mul]
  all_goals try push_cast
  all_goals comp_eq

theorem d_wing_surface_control_mass__verticaltail_area (wing_surface_control_mass_scaler wing_area
    horizontaltail_wetted_area horizontaltail_thickness_to_chord verticaltail_area : ℝ) (h0 : 0 <
    horizontaltail_thickness_to_chord) :
    HasDerivAt (fun t => out_wing_surface_control_mass wing_surface_control_mass_scaler wing_area horizontaltail_wetted_area horizontaltail_thickness_to_chord t) (J_wing_surface_control_mass__verticaltail_area wing_surface_control_mass_scaler) verticaltail_area := by
  simp only [out_wing_surface_control_mass, J_wing_surface_control_mass__verticaltail_area, surface_ctrls_wt]
  (apply hasDerivAt_of_eq; on_goal 1 => (repeat' comp_step))
  all_goals try comp_side
  all_goals try simp only [mul_zero, zero_mul, add_zero, zero_add, sub_zero, zero_sub, mul_one, one_mul]
  all_goals try push_cast
  all_goals comp_eq

theorem d_wing_control_surface_area__wing_area (wing_area wing_control_surface_area_ratio : ℝ)  :
    HasDerivAt (fun t => out_wing_control_surface_area t wing_control_surface_area_ratio) (J_wing_control_surface_area__wing_area wing_control_surface_area_ratio) wing_area := by
  simp only [out_wing_control_surface_area, J_wing_control_surface_area__wing_area]
  (apply hasDerivAt_of_eq; on_goal 1 => (repeat' comp_step))
  all_goals try comp_side
  all_goals try simp only [mul_zero, zero_mul, add_zero, zero_add, sub_zero, zero_sub, mul_one, one_mul]
  all_goals try push_cast
  all_goals comp_eq

theorem d_wing_control_surface_area__wing_control_surface_area_ratio (wing_area
    wing_control_surface_area_ratio : ℝ)  :
    HasDerivAt (fun t => out_wing_control_surface_area wing_area t) (J_wing_control_surface_area__wing_control_surface_area_ratio wing_area) wing_control_surface_area_ratio := by
  simp only [out_wing_control_surface_area, J_wing_control_surface_area__wing_control_surface_area_ratio]
  (apply hasDerivAt_of_eq; on_goal 1 => (repeat' comp_step))
  all_goals try comp_side
  all_goals try simp only [mul_zero, zero_mul, add_zero, zero_add, sub_zero, zero_sub, mul_one, one_mul]
  all_goals try push_cast
  all_goals comp_eq

/-- Every partial derivative set by `AltSurfaceControlMass` is the derivative of its output. -/
theorem partials (wing_surface_control_mass_scaler wing_area wing_control_surface_area_ratio
    horizontaltail_wetted_area horizontaltail_thickness_to_chord verticaltail_area : ℝ) (h0 : 0 <
    horizontaltail_thickness_to_chord) :
    HasDerivAt (fun t => out_wing_surface_control_mass t wing_area horizontaltail_wetted_area
      horizontaltail_thickness_to_chord verticaltail_area)
      (J_wing_surface_control_mass__wing_surface_control_mass_scaler wing_area
      horizontaltail_wetted_area horizontaltail_thickness_to_chord verticaltail_area)
      wing_surface_control_mass_scaler ∧
    HasDerivAt (fun t => out_wing_surface_control_mass wing_surface_control_mass_scaler t
      horizontaltail_wetted_area horizontaltail_thickness_to_chord verticaltail_area)
      (J_wing_surface_control_mass__wing_area wing_surface_control_mass_scaler) wing_area ∧
    HasDerivAt (fun t => out_wing_surface_control_mass wing_surface_control_mass_scaler wing_area t
      horizontaltail_thickness_to_chord verticaltail_area)
      (J_wing_surface_control_mass__horizontaltail_wetted_area wing_surface_control_mass_scaler
      horizontaltail_thickness_to_chord) horizontaltail_wetted_area ∧
    HasDerivAt (fun t => out_wing_surface_control_mass wing_surface_control_mass_scaler wing_area
      horizontaltail_wetted_area t verticaltail_area)
      (J_wing_surface_control_mass__horizontaltail_thickness_to_chord
      wing_surface_control_mass_scaler horizontaltail_wetted_area
      horizontaltail_thickness_to_chord) horizontaltail_thickness_to_chord ∧
    HasDerivAt (fun t => out_wing_surface_control_mass wing_surface_control_mass_scaler wing_area
      horizontaltail_wetted_area horizontaltail_thickness_to_chord t)
      (J_wing_surface_control_mass__verticaltail_area wing_surface_control_mass_scaler)
      verticaltail_area ∧
    HasDerivAt (fun t => out_wing_control_surface_area t wing_control_surface_area_ratio)
      (J_wing_control_surface_area__wing_area wing_control_surface_area_ratio) wing_area ∧
    HasDerivAt (fun t => out_wing_control_surface_area wing_area t)
      (J_wing_control_surface_area__wing_control_surface_area_ratio wing_area)
      wing_control_surface_area_ratio :=
  ⟨d_wing_surface_control_mass__wing_surface_control_mass_scaler _ _ _ _ _ h0,
    d_wing_surface_control_mass__wing_area _ _ _ _ _ h0,
    d_wing_surface_control_mass__horizontaltail_wetted_area _ _ _ _ _ h0,
    d_wing_surface_control_mass__horizontaltail_thickness_to_chord _ _ _ _ _ h0,
    d_wing_surface_control_mass__verticaltail_area _ _ _ _ _ h0,
    d_wing_control_surface_area__wing_area _ _,
    d_wing_control_surface_area__wing_control_surface_area_ratio _ _⟩

example : ∃ wing_surface_control_mass_scaler wing_area wing_control_surface_area_ratio
      horizontaltail_wetted_area horizontaltail_thickness_to_chord verticaltail_area : ℝ,
      0 < horizontaltail_thickness_to_chord :=
  ⟨0, 0, 0, 0, 1, 0, by comp_example⟩

end Verif.Comp.MassFlopsBasedSurfaceControls.AltSurfaceControlMass

namespace Verif.Comp.MassFlopsBasedSurfaceControls.SurfaceControlMass
open Real

/-- aviary/subsystems/mass/flops_based/surface_controls.py:39 -/
noncomputable def surface_flap_area (wing_control_surface_area_ratio wing_area : ℝ) : ℝ :=
  wing_control_surface_area_ratio * wing_area

/-- aviary/subsystems/mass/flops_based/surface_controls.py:41 -/
noncomputable def surface_ctrls_wt (constraints_max_mach wing_surface_control_mass_scaler design_gross_mass wing_control_surface_area_ratio wing_area : ℝ) : ℝ :=
  ((((11 / 10) * (constraints_max_mach ^ ((13 / 25) : ℝ))) * ((surface_flap_area
    wing_control_surface_area_ratio wing_area) ^ ((3 / 5) : ℝ))) * (design_gross_mass ^ ((8 /
    25) : ℝ))) * wing_surface_control_mass_scaler

/-- aviary/subsystems/mass/flops_based/surface_controls.py:58 -/
noncomputable def max_mach_exp (constraints_max_mach : ℝ) : ℝ :=
  constraints_max_mach ^ ((13 / 25) : ℝ)

/-- aviary/subsystems/mass/flops_based/surface_controls.py:59 -/
noncomputable def surface_area_exp (wing_control_surface_area_ratio wing_area : ℝ) : ℝ :=
  (surface_flap_area wing_control_surface_area_ratio wing_area) ^ ((3 / 5) : ℝ)

/-- aviary/subsystems/mass/flops_based/surface_controls.py:60 -/
noncomputable def gross_weight_exp (design_gross_mass : ℝ) : ℝ := design_gross_mass ^ ((8 / 25) : ℝ)

/-- Output `wing_control_surface_area` of `SurfaceControlMass.compute`, aviary/subsystems/mass/flops_based/surface_controls.py:45 -/
noncomputable def out_wing_control_surface_area (wing_control_surface_area_ratio wing_area : ℝ) : ℝ :=
  surface_flap_area wing_control_surface_area_ratio wing_area

/-- Output `wing_surface_control_mass` of `SurfaceControlMass.compute`, aviary/subsystems/mass/flops_based/surface_controls.py:47 -/
noncomputable def out_wing_surface_control_mass (constraints_max_mach wing_surface_control_mass_scaler design_gross_mass wing_control_surface_area_ratio wing_area : ℝ) : ℝ :=
  surface_ctrls_wt constraints_max_mach wing_surface_control_mass_scaler design_gross_mass
    wing_control_surface_area_ratio wing_area

/-- Partial of `wing_surface_control_mass` with respect to `wing_surface_control_mass_scaler` as set by `SurfaceControlMass`, aviary/subsystems/mass/flops_based/surface_controls.py:62 -/
noncomputable def J_wing_surface_control_mass__wing_surface_control_mass_scaler (constraints_max_mach design_gross_mass wing_control_surface_area_ratio wing_area : ℝ) : ℝ :=
  (((11 / 10) * (max_mach_exp constraints_max_mach)) * (surface_area_exp
    wing_control_surface_area_ratio wing_area)) * (gross_weight_exp design_gross_mass)

/-- Partial of `wing_surface_control_mass` with respect to `design_gross_mass` as set by `SurfaceControlMass`, aviary/subsystems/mass/flops_based/surface_controls.py:66 -/
noncomputable def J_wing_surface_control_mass__design_gross_mass (constraints_max_mach wing_surface_control_mass_scaler design_gross_mass wing_control_surface_area_ratio wing_area : ℝ) : ℝ :=
  (((((11 / 10) * (max_mach_exp constraints_max_mach)) * (surface_area_exp
    wing_control_surface_area_ratio wing_area)) * (8 / 25)) * (design_gross_mass ^ ((-(17 / 25))
    : ℝ))) * wing_surface_control_mass_scaler

/-- Partial of `wing_surface_control_mass` with respect to `wing_control_surface_area_ratio` as set by `SurfaceControlMass`, aviary/subsystems/mass/flops_based/surface_controls.py:70 -/
noncomputable def J_wing_surface_control_mass__wing_control_surface_area_ratio (constraints_max_mach wing_surface_control_mass_scaler design_gross_mass wing_control_surface_area_ratio wing_area : ℝ) : ℝ :=
  ((((((11 / 10) * (max_mach_exp constraints_max_mach)) * (3 / 5)) * ((surface_flap_area
    wing_control_surface_area_ratio wing_area) ^ ((-(2 / 5)) : ℝ))) * (gross_weight_exp
    design_gross_mass)) * wing_area) * wing_surface_control_mass_scaler

/-- Partial of `wing_surface_control_mass` with respect to `wing_area` as set by `SurfaceControlMass`, aviary/subsystems/mass/flops_based/surface_controls.py:81 -/
noncomputable def J_wing_surface_control_mass__wing_area (constraints_max_mach wing_surface_control_mass_scaler design_gross_mass wing_control_surface_area_ratio wing_area : ℝ) : ℝ :=
  ((((((11 / 10) * (max_mach_exp constraints_max_mach)) * (3 / 5)) * ((surface_flap_area
    wing_control_surface_area_ratio wing_area) ^ ((-(2 / 5)) : ℝ))) * (gross_weight_exp
    design_gross_mass)) * wing_control_surface_area_ratio) * wing_surface_control_mass_scaler

/-- Partial of `wing_control_surface_area` with respect to `wing_control_surface_area_ratio` as set by `SurfaceControlMass`, aviary/subsystems/mass/flops_based/surface_controls.py:92 -/
noncomputable def J_wing_control_surface_area__wing_control_surface_area_ratio (wing_area : ℝ) : ℝ :=
  wing_area

/-- Partial of `wing_control_surface_area` with respect to `wing_area` as set by `SurfaceControlMass`, aviary/subsystems/mass/flops_based/surface_controls.py:93 -/
noncomputable def J_wing_control_surface_area__wing_area (wing_control_surface_area_ratio : ℝ) : ℝ :=
  wing_control_surface_area_ratio

theorem d_wing_control_surface_area__wing_control_surface_area_ratio
    (wing_control_surface_area_ratio wing_area : ℝ)  :
    HasDerivAt (fun t => out_wing_control_surface_area t wing_area) (J_wing_control_surface_area__wing_control_surface_area_ratio wing_area) wing_control_surface_area_ratio := by
  simp only [out_wing_control_surface_area, J_wing_control_surface_area__wing_control_surface_area_ratio, surface_flap_area]
  (apply hasDerivAt_of_eq; on_goal 1 => (repeat' comp_step))
  all_goals try comp_side
  all_goals try simp only [mul_zero, zero_mul, add_zero, zero_add, sub_zero, zero_sub, mul_one, one_mul]
  all_goals try push_cast
  all_goals comp_eq

theorem d_wing_control_surface_area__wing_area (wing_control_surface_area_ratio wing_area : ℝ)  :
    HasDerivAt (fun t => out_wing_control_surface_area wing_control_surface_area_ratio t) (J_wing_control_surface_area__wing_area wing_control_surface_area_ratio) wing_area := by
  simp only [out_wing_control_surface_area, J_wing_control_surface_area__wing_area, surface_flap_area]
  (apply hasDerivAt_of_eq; on_goal 1 => (repeat' comp_step))
  all_goals try comp_side
  all_goals try simp only [mul_zero, zero_mul, add_zero, zero_add, sub_zero, zero_sub, mul_one, one_mul]
  all_goals try push_cast
  all_goals comp_eq

theorem d_wing_surface_control_mass__wing_surface_control_mass_scaler (constraints_max_mach
    wing_surface_control_mass_scaler design_gross_mass wing_control_surface_area_ratio wing_area :
    ℝ) (h0 : 0 < constraints_max_mach) (h1 : 0 < wing_control_surface_area_ratio) (h2 : 0 <
    wing_area) (h3 : 0 < design_gross_mass) :
    HasDerivAt (fun t => out_wing_surface_control_mass constraints_max_mach t design_gross_mass wing_control_surface_area_ratio wing_area) (J_wing_surface_control_mass__wing_surface_control_mass_scaler constraints_max_mach design_gross_mass wing_control_surface_area_ratio wing_area) wing_surface_control_mass_scaler := by
  simp only [out_wing_surface_control_mass, J_wing_surface_control_mass__wing_surface_control_mass_scaler, gross_weight_exp, surface_area_exp, max_mach_exp, surface_ctrls_wt, surface_flap_area]
  (apply hasDerivAt_of_eq; on_goal 1 => (repeat' comp_step))
  all_goals try comp_side
  all_goals try simp only [mul_zero, zero_mul, add_zero, zero_add, sub_zero, zero_sub, mul_one, one_mul]
  all_goals try push_cast
  all_goals comp_eq

theorem d_wing_surface_control_mass__design_gross_mass (constraints_max_mach
    wing_surface_control_mass_scaler design_gross_mass wing_control_surface_area_ratio wing_area :
    ℝ) (h0 : 0 < constraints_max_mach) (h1 : 0 < wing_control_surface_area_ratio) (h2 : 0 <
    wing_area) (h3 : 0 < design_gross_mass) :
    HasDerivAt (fun t => out_wing_surface_control_mass constraints_max_mach wing_surface_control_mass_scaler t wing_control_surface_area_ratio wing_area) (J_wing_surface_control_mass__design_gross_mass constraints_max_mach wing_surface_control_mass_scaler design_gross_mass wing_control_surface_area_ratio wing_area) design_gross_mass := by
  have e0 : ∀ x : ℝ, 0 < x → x ^ ((-(17 / 25)) : ℝ) = x ^ ((8 / 25) : ℝ) / x ^ 1 := fun x hx => rpow_down hx 1 (by norm_num)
  simp only [out_wing_surface_control_mass, J_wing_surface_control_mass__design_gross_mass, surface_area_exp, max_mach_exp, surface_ctrls_wt, surface_flap_area]
  (apply hasDerivAt_of_eq; on_goal 1 => (repeat' comp_step))
  all_goals try comp_side
  all_goals try simp (disch := first | assumption | positivity) only [e0]
  all_goals try simp only [mul_zero, zero_mul, add_zero, zero_add, sub_zero, zero_sub, mul_one, one_mul]
  all_goals try push_cast
  all_goals comp_eq

theorem d_wing_surface_control_mass__wing_control_surface_area_ratio (constraints_max_mach
    wing_surface_control_mass_scaler design_gross_mass wing_control_surface_area_ratio wing_area :
    ℝ) (h0 : 0 < constraints_max_mach) (h1 : 0 < wing_control_surface_area_ratio) (h2 : 0 <
    wing_area) (h3 : 0 < design_gross_mass) :
    HasDerivAt (fun t => out_wing_surface_control_mass constraints_max_mach wing_surface_control_mass_scaler design_gross_mass t wing_area) (J_wing_surface_control_mass__wing_control_surface_area_ratio constraints_max_mach wing_surface_control_mass_scaler design_gross_mass wing_control_surface_area_ratio wing_area) wing_control_surface_area_ratio := by
  have e0 : ∀ x : ℝ, 0 < x → x ^ ((-(2 / 5)) : ℝ) = x ^ ((3 / 5) : ℝ) / x ^ 1 := fun x hx => rpow_down hx 1 (by norm_num)
  simp only [out_wing_surface_control_mass, J_wing_surface_control_mass__wing_control_surface_area_ratio, gross_weight_exp, max_mach_exp, surface_ctrls_wt, surface_flap_area]
  (apply hasDerivAt_of_eq; on_goal 1 => (repeat' comp_step))
  all_goals try comp_side
  all_goals try simp (disch := first | assumption | positivity) only [e0]
  all_goals try simp only [mul_zero, zero_mul, add_zero, zero_add, sub_zero, zero_sub, mul_one, one_mul]
  all_goals try push_cast
  all_goals comp_eq

theorem d_wing_surface_control_mass__wing_area (constraints_max_mach
    wing_surface_control_mass_scaler design_gross_mass wing_control_surface_area_ratio wing_area :
    ℝ) (h0 : 0 < constraints_max_mach) (h1 : 0 < wing_control_surface_area_ratio) (h2 : 0 <
    wing_area) (h3 : 0 < design_gross_mass) :
    HasDerivAt (fun t => out_wing_surface_control_mass constraints_max_mach wing_surface_control_mass_scaler design_gross_mass wing_control_surface_area_ratio t) (J_wing_surface_control_mass__wing_area constraints_max_mach wing_surface_control_mass_scaler design_gross_mass wing_control_surface_area_ratio wing_area) wing_area := by
  have e0 : ∀ x : ℝ, 0 < x → x ^ ((-(2 / 5)) : ℝ) = x ^ ((3 / 5) : ℝ) / x ^ 1 := fun x hx => rpow_down hx 1 (by norm_num)
  simp only [out_wing_surface_control_mass, J_wing_surface_control_mass__wing_area, gross_weight_exp, max_mach_exp, surface_ctrls_wt, surface_flap_area]
  (apply hasDerivAt_of_eq; on_goal 1 => (repeat' comp_step))
  all_goals try comp_side
  all_goals try simp (disch := first | assumption | positivity) only [e0]
  all_goals try simp only [mul_zero, zero_mul, add_zero, zero_add, sub_zero, zero_sub, mul_one, one_mul]
  all_goals try push_cast
  all_goals comp_eq

/-- Every partial derivative set by `SurfaceControlMass` is the derivative of its output. -/
theorem partials (constraints_max_mach wing_surface_control_mass_scaler design_gross_mass
    wing_control_surface_area_ratio wing_area : ℝ) (h0 : 0 < constraints_max_mach) (h1 : 0 <
    wing_control_surface_area_ratio) (h2 : 0 < wing_area) (h3 : 0 < design_gross_mass) :
    HasDerivAt (fun t => out_wing_control_surface_area t wing_area)
      (J_wing_control_surface_area__wing_control_surface_area_ratio wing_area)
      wing_control_surface_area_ratio ∧
    HasDerivAt (fun t => out_wing_control_surface_area wing_control_surface_area_ratio t)
      (J_wing_control_surface_area__wing_area wing_control_surface_area_ratio) wing_area ∧
    HasDerivAt (fun t => out_wing_surface_control_mass constraints_max_mach t design_gross_mass
      wing_control_surface_area_ratio wing_area)
      (J_wing_surface_control_mass__wing_surface_control_mass_scaler constraints_max_mach
      design_gross_mass wing_control_surface_area_ratio wing_area)
      wing_surface_control_mass_scaler ∧
    HasDerivAt (fun t => out_wing_surface_control_mass constraints_max_mach
      wing_surface_control_mass_scaler t wing_control_surface_area_ratio wing_area)
      (J_wing_surface_control_mass__design_gross_mass constraints_max_mach
      wing_surface_control_mass_scaler design_gross_mass wing_control_surface_area_ratio
      wing_area) design_gross_mass ∧
    HasDerivAt (fun t => out_wing_surface_control_mass constraints_max_mach
      wing_surface_control_mass_scaler design_gross_mass t wing_area)
      (J_wing_surface_control_mass__wing_control_surface_area_ratio constraints_max_mach
      wing_surface_control_mass_scaler design_gross_mass wing_control_surface_area_ratio
      wing_area) wing_control_surface_area_ratio ∧
    HasDerivAt (fun t => out_wing_surface_control_mass constraints_max_mach
      wing_surface_control_mass_scaler design_gross_mass wing_control_surface_area_ratio t)
      (J_wing_surface_control_mass__wing_area constraints_max_mach
      wing_surface_control_mass_scaler design_gross_mass wing_control_surface_area_ratio
      wing_area) wing_area :=
  ⟨d_wing_control_surface_area__wing_control_surface_area_ratio _ _,
    d_wing_control_surface_area__wing_area _ _,
    d_wing_surface_control_mass__wing_surface_control_mass_scaler _ _ _ _ _ h0 h1 h2 h3,
    d_wing_surface_control_mass__design_gross_mass _ _ _ _ _ h0 h1 h2 h3,
    d_wing_surface_control_mass__wing_control_surface_area_ratio _ _ _ _ _ h0 h1 h2 h3,
    d_wing_surface_control_mass__wing_area _ _ _ _ _ h0 h1 h2 h3⟩

example : ∃ constraints_max_mach wing_surface_control_mass_scaler design_gross_mass
      wing_control_surface_area_ratio wing_area : ℝ,
      0 < constraints_max_mach ∧
      0 < wing_control_surface_area_ratio ∧
      0 < wing_area ∧
      0 < design_gross_mass :=
  ⟨1, 0, 1, 1, 1, by comp_example, by comp_example, by comp_example, by comp_example⟩

end Verif.Comp.MassFlopsBasedSurfaceControls.SurfaceControlMass

