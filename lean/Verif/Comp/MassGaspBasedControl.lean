import Verif.Lemmas.CompDeriv

/-! # Partial derivatives of the components of `aviary/subsystems/mass/gasp_based/control.py`

One node of a vector component is modelled over the real numbers.  Each option that selects a
branch is fixed, one namespace per choice.  `out_x` is the output `x`, `J_x__y` the entry that
`compute_partials` (or `declare_partials` with `val`) assigns, `d_x__y` the proof that the entry is
the derivative.  Inputs an output does not take as argument have no influence on it.

* `SurfaceControlMass`: entries that differ from the derivative: `wing_surface_control_mass` by
  `min_dive_vel`, `wing_surface_control_mass` by `wing_area`, `wing_surface_control_mass` by
  `wing_ultimate_load_factor` -/

set_option linter.all false

namespace Verif.Comp.MassGaspBasedControl.MiscControlMass
open Real

/-- aviary/subsystems/mass/gasp_based/control.py:64 -/
noncomputable def intermediate_cockpit_control_wt (design_gross_mass design_cockpit_control_mass_coefficient : ℝ) : ℝ :=
  design_cockpit_control_mass_coefficient * ((design_gross_mass / 1000) ^ ((41 / 100) : ℝ))

/-- aviary/subsystems/mass/gasp_based/control.py:67 -/
noncomputable def cockpit_control_wt (design_gross_mass design_cockpit_control_mass_coefficient controls_cockpit_control_mass_scaler : ℝ) : ℝ :=
  controls_cockpit_control_mass_scaler * (intermediate_cockpit_control_wt design_gross_mass
    design_cockpit_control_mass_coefficient)

/-- aviary/subsystems/mass/gasp_based/control.py:68 -/
noncomputable def stab_control_wt (controls_stability_augmentation_system_reference_mass controls_stability_augmentation_system_mass_scaler : ℝ) : ℝ :=
  controls_stability_augmentation_system_mass_scaler *
    controls_stability_augmentation_system_reference_mass

/-- Output `controls_cockpit_control_mass` of `MiscControlMass.compute`, aviary/subsystems/mass/gasp_based/control.py:70 -/
noncomputable def out_controls_cockpit_control_mass (design_gross_mass design_cockpit_control_mass_coefficient controls_cockpit_control_mass_scaler : ℝ) : ℝ :=
  cockpit_control_wt design_gross_mass design_cockpit_control_mass_coefficient
    controls_cockpit_control_mass_scaler

/-- Output `controls_stability_augmentation_system_mass` of `MiscControlMass.compute`, aviary/subsystems/mass/gasp_based/control.py:71 -/
noncomputable def out_controls_stability_augmentation_system_mass (controls_stability_augmentation_system_reference_mass controls_stability_augmentation_system_mass_scaler : ℝ) : ℝ :=
  stab_control_wt controls_stability_augmentation_system_reference_mass
    controls_stability_augmentation_system_mass_scaler

/-- Partial of `controls_stability_augmentation_system_mass` with respect to `controls_stability_augmentation_system_mass_scaler` as set by `MiscControlMass`, aviary/subsystems/mass/gasp_based/control.py:83 -/
noncomputable def J_controls_stability_augmentation_system_mass__controls_stability_augmentation_system_mass_scaler (controls_stability_augmentation_system_reference_mass : ℝ) : ℝ :=
  controls_stability_augmentation_system_reference_mass

/-- Partial of `controls_stability_augmentation_system_mass` with respect to `controls_stability_augmentation_system_reference_mass` as set by `MiscControlMass`, aviary/subsystems/mass/gasp_based/control.py:87 -/
noncomputable def J_controls_stability_augmentation_system_mass__controls_stability_augmentation_system_reference_mass (controls_stability_augmentation_system_mass_scaler : ℝ) : ℝ :=
  controls_stability_augmentation_system_mass_scaler

/-- Partial of `controls_cockpit_control_mass` with respect to `controls_cockpit_control_mass_scaler` as set by `MiscControlMass`, aviary/subsystems/mass/gasp_based/control.py:92 -/
noncomputable def J_controls_cockpit_control_mass__controls_cockpit_control_mass_scaler (design_gross_mass design_cockpit_control_mass_coefficient : ℝ) : ℝ :=
  design_cockpit_control_mass_coefficient * ((design_gross_mass / 1000) ^ ((41 / 100) : ℝ))

/-- Partial of `controls_cockpit_control_mass` with respect to `design_cockpit_control_mass_coefficient` as set by `MiscControlMass`, aviary/subsystems/mass/gasp_based/control.py:97 -/
noncomputable def J_controls_cockpit_control_mass__design_cockpit_control_mass_coefficient (design_gross_mass controls_cockpit_control_mass_scaler : ℝ) : ℝ :=
  controls_cockpit_control_mass_scaler * ((design_gross_mass / 1000) ^ ((41 / 100) : ℝ))

/-- Partial of `controls_cockpit_control_mass` with respect to `design_gross_mass` as set by `MiscControlMass`, aviary/subsystems/mass/gasp_based/control.py:102 -/
noncomputable def J_controls_cockpit_control_mass__design_gross_mass (design_gross_mass design_cockpit_control_mass_coefficient controls_cockpit_control_mass_scaler : ℝ) : ℝ :=
  (((controls_cockpit_control_mass_scaler * design_cockpit_control_mass_coefficient) * (41 /
    100)) * ((design_gross_mass / 1000) ^ ((-(59 / 100)) : ℝ))) / 1000

theorem d_controls_cockpit_control_mass__design_gross_mass (design_gross_mass
    design_cockpit_control_mass_coefficient controls_cockpit_control_mass_scaler : ℝ) (h0 : 0 <
    design_gross_mass) :
    HasDerivAt (fun t => out_controls_cockpit_control_mass t design_cockpit_control_mass_coefficient controls_cockpit_control_mass_scaler) (J_controls_cockpit_control_mass__design_gross_mass design_gross_mass design_cockpit_control_mass_coefficient controls_cockpit_control_mass_scaler) design_gross_mass := by
  have e0 : ∀ x : ℝ, 0 < x → x ^ ((-(59 / 100)) : ℝ) = x ^ ((41 / 100) : ℝ) / x ^ 1 := fun x hx => rpow_down hx 1 (by norm_num)
  simp only [out_controls_cockpit_control_mass, J_controls_cockpit_control_mass__design_gross_mass, cockpit_control_wt, intermediate_cockpit_control_wt]
  (apply hasDerivAt_of_eq; on_goal 1 => (repeat' comp_step))
  all_goals try comp_side
  all_goals try simp (disch := first | assumption | positivity) only [e0]
  all_goals try simp only [mul_zero, zero_mul, add_zero, zero_add, sub_zero, zero_sub, mul_one, one_mul]
  all_goals try push_cast
  all_goals comp_eq

theorem d_controls_cockpit_control_mass__design_cockpit_control_mass_coefficient
    (design_gross_mass design_cockpit_control_mass_coefficient
    controls_cockpit_control_mass_scaler : ℝ) (h0 : 0 < design_gross_mass) :
    HasDerivAt (fun t => out_controls_cockpit_control_mass design_gross_mass t controls_cockpit_control_mass_scaler) (J_controls_cockpit_control_mass__design_cockpit_control_mass_coefficient design_gross_mass controls_cockpit_control_mass_scaler) design_cockpit_control_mass_coefficient := by
  simp only [out_controls_cockpit_control_mass, J_controls_cockpit_control_mass__design_cockpit_control_mass_coefficient, cockpit_control_wt, intermediate_cockpit_control_wt]
  (apply hasDerivAt_of_eq; on_goal 1 => (repeat' comp_step))
  all_goals try comp_side
  all_goals try simp only [mul_zero, zero_mul, add_zero, zero_add, sub_zero, zero_sub, mul_one, one_mul]
  all_goals try push_cast
  all_goals comp_eq

theorem d_controls_cockpit_control_mass__controls_cockpit_control_mass_scaler (design_gross_mass
    design_cockpit_control_mass_coefficient controls_cockpit_control_mass_scaler : ℝ) (h0 : 0 <
    design_gross_mass) :
    HasDerivAt (fun t => out_controls_cockpit_control_mass design_gross_mass design_cockpit_control_mass_coefficient t) (J_controls_cockpit_control_mass__controls_cockpit_control_mass_scaler design_gross_mass design_cockpit_control_mass_coefficient) controls_cockpit_control_mass_scaler := by
  simp only [out_controls_cockpit_control_mass, J_controls_cockpit_control_mass__controls_cockpit_control_mass_scaler, cockpit_control_wt, intermediate_cockpit_control_wt]
  (apply hasDerivAt_of_eq; on_goal 1 => (repeat' comp_step))
  all_goals try comp_side
  all_goals try simp only [mul_zero, zero_mul, add_zero, zero_add, sub_zero, zero_sub, mul_one, one_mul]
  all_goals try push_cast
  all_goals comp_eq

theorem
    d_controls_stability_augmentation_system_mass__controls_stability_augmentation_system_reference_mass
    (controls_stability_augmentation_system_reference_mass
    controls_stability_augmentation_system_mass_scaler : ℝ)  :
    HasDerivAt (fun t => out_controls_stability_augmentation_system_mass t controls_stability_augmentation_system_mass_scaler) (J_controls_stability_augmentation_system_mass__controls_stability_augmentation_system_reference_mass controls_stability_augmentation_system_mass_scaler) controls_stability_augmentation_system_reference_mass := by
  simp only [out_controls_stability_augmentation_system_mass, J_controls_stability_augmentation_system_mass__controls_stability_augmentation_system_reference_mass, stab_control_wt]
  (apply hasDerivAt_of_eq; on_goal 1 => (repeat' comp_step))
  all_goals try comp_side
  all_goals try simp only [mul_zero, zero_mul, add_zero, zero_add, sub_zero, zero_sub, mul_one, one_mul]
  all_goals try push_cast
  all_goals comp_eq

theorem
    d_controls_stability_augmentation_system_mass__controls_stability_augmentation_system_mass_scaler
    (controls_stability_augmentation_system_reference_mass
    controls_stability_augmentation_system_mass_scaler : ℝ)  :
    HasDerivAt (fun t => out_controls_stability_augmentation_system_mass controls_stability_augmentation_system_reference_mass t) (J_controls_stability_augmentation_system_mass__controls_stability_augmentation_system_mass_scaler controls_stability_augmentation_system_reference_mass) controls_stability_augmentation_system_mass_scaler := by
  simp only [out_controls_stability_augmentation_system_mass, J_controls_stability_augmentation_system_mass__controls_stability_augmentation_system_mass_scaler, stab_control_wt]
  (apply hasDerivAt_of_eq; on_goal 1 => (repeat' comp_step))
  all_goals try comp_side
  all_goals try simp only [mul_zero, zero_mul, add_zero, zero_add, sub_zero, zero_sub, mul_one, one_mul]
  all_goals try push_cast
  all_goals comp_eq

/-- Every partial derivative set by `MiscControlMass` is the derivative of its output. -/
theorem partials (design_gross_mass design_cockpit_control_mass_coefficient
    controls_stability_augmentation_system_reference_mass controls_cockpit_control_mass_scaler
    controls_stability_augmentation_system_mass_scaler : ℝ) (h0 : 0 < design_gross_mass) :
    HasDerivAt (fun t => out_controls_cockpit_control_mass t design_cockpit_control_mass_coefficient
      controls_cockpit_control_mass_scaler) (J_controls_cockpit_control_mass__design_gross_mass
      design_gross_mass design_cockpit_control_mass_coefficient
      controls_cockpit_control_mass_scaler) design_gross_mass ∧
    HasDerivAt (fun t => out_controls_cockpit_control_mass design_gross_mass t
      controls_cockpit_control_mass_scaler)
      (J_controls_cockpit_control_mass__design_cockpit_control_mass_coefficient design_gross_mass
      controls_cockpit_control_mass_scaler) design_cockpit_control_mass_coefficient ∧
    HasDerivAt (fun t => out_controls_cockpit_control_mass design_gross_mass
      design_cockpit_control_mass_coefficient t)
      (J_controls_cockpit_control_mass__controls_cockpit_control_mass_scaler design_gross_mass
      design_cockpit_control_mass_coefficient) controls_cockpit_control_mass_scaler ∧
    HasDerivAt (fun t => out_controls_stability_augmentation_system_mass t
      controls_stability_augmentation_system_mass_scaler)
      (J_controls_stability_augmentation_system_mass__controls_stability_augmentation_system_reference_mass
      controls_stability_augmentation_system_mass_scaler)
      controls_stability_augmentation_system_reference_mass ∧
    HasDerivAt (fun t => out_controls_stability_augmentation_system_mass
      controls_stability_augmentation_system_reference_mass t)
      (J_controls_stability_augmentation_system_mass__controls_stability_augmentation_system_mass_scaler
      controls_stability_augmentation_system_reference_mass)
      controls_stability_augmentation_system_mass_scaler :=
  ⟨d_controls_cockpit_control_mass__design_gross_mass _ _ _ h0,
    d_controls_cockpit_control_mass__design_cockpit_control_mass_coefficient _ _ _ h0,
    d_controls_cockpit_control_mass__controls_cockpit_control_mass_scaler _ _ _ h0,
    d_controls_stability_augmentation_system_mass__controls_stability_augmentation_system_reference_mass
    _ _,
    d_controls_stability_augmentation_system_mass__controls_stability_augmentation_system_mass_scaler
    _ _⟩

example : ∃ design_gross_mass design_cockpit_control_mass_coefficient
      controls_stability_augmentation_system_reference_mass controls_cockpit_control_mass_scaler
      controls_stability_augmentation_system_mass_scaler : ℝ,
      0 < design_gross_mass :=
  ⟨1, 0, 0, 0, 0, by comp_example⟩

end Verif.Comp.MassGaspBasedControl.MiscControlMass

namespace Verif.Comp.MassGaspBasedControl.SurfaceControlMass
open Real

/-- aviary/subsystems/mass/gasp_based/control.py:155 -/
noncomputable def dive_param (min_dive_vel : ℝ) : ℝ := (((23 / 20) * min_dive_vel) ^ 2) / 391

/-- aviary/subsystems/mass/gasp_based/control.py:156 -/
noncomputable def intermediate_control_wt (wing_surface_control_mass_coefficient wing_area design_gross_mass wing_ultimate_load_factor min_dive_vel : ℝ) : ℝ :=
  (((wing_surface_control_mass_coefficient * (wing_area ^ ((317 / 1000) : ℝ))) *
    ((design_gross_mass / 1000) ^ ((301 / 500) : ℝ))) * (wing_ultimate_load_factor ^ ((21 / 40)
    : ℝ))) * ((dive_param min_dive_vel) ^ ((69 / 200) : ℝ))

/-- aviary/subsystems/mass/gasp_based/control.py:163 -/
noncomputable def intermediate_cockpit_control_wt (controls_cockpit_control_mass_scaler controls_cockpit_control_mass : ℝ) : ℝ :=
  controls_cockpit_control_mass / controls_cockpit_control_mass_scaler

/-- aviary/subsystems/mass/gasp_based/control.py:166 -/
noncomputable def wing_control_wt (wing_surface_control_mass_coefficient wing_area design_gross_mass wing_ultimate_load_factor controls_cockpit_control_mass_scaler wing_surface_control_mass_scaler min_dive_vel controls_cockpit_control_mass : ℝ) : ℝ :=
  wing_surface_control_mass_scaler * ((intermediate_control_wt
    wing_surface_control_mass_coefficient wing_area design_gross_mass wing_ultimate_load_factor
    min_dive_vel) - (intermediate_cockpit_control_wt controls_cockpit_control_mass_scaler
    controls_cockpit_control_mass))

/-- aviary/subsystems/mass/gasp_based/control.py:195 -/
noncomputable def dscw_dswcc (wing_area design_gross_mass wing_ultimate_load_factor wing_surface_control_mass_scaler min_dive_vel : ℝ) : ℝ :=
  (((wing_surface_control_mass_scaler * (wing_area ^ ((317 / 1000) : ℝ))) * ((design_gross_mass
    / 1000) ^ ((301 / 500) : ℝ))) * (wing_ultimate_load_factor ^ ((21 / 40) : ℝ))) *
    ((dive_param min_dive_vel) ^ ((69 / 200) : ℝ))

/-- aviary/subsystems/mass/gasp_based/control.py:204 -/
noncomputable def dscw_dwa (wing_surface_control_mass_coefficient wing_area design_gross_mass wing_ultimate_load_factor min_dive_vel : ℝ) : ℝ :=
  (317 / 1000) * ((((wing_surface_control_mass_coefficient * (wing_area ^ ((-(683 / 1000)) :
    ℝ))) * ((design_gross_mass / 1000) ^ ((301 / 500) : ℝ))) * (wing_ultimate_load_factor ^ ((21
    / 40) : ℝ))) * ((dive_param min_dive_vel) ^ ((69 / 200) : ℝ)))

/-- aviary/subsystems/mass/gasp_based/control.py:213 -/
noncomputable def dscw_dwg (wing_surface_control_mass_coefficient wing_area design_gross_mass wing_ultimate_load_factor min_dive_vel : ℝ) : ℝ :=
  ((((((301 / 500) * wing_surface_control_mass_coefficient) * (wing_area ^ ((317 / 1000) : ℝ)))
    * ((design_gross_mass / 1000) ^ ((-(199 / 500)) : ℝ))) * (1 / 1000)) *
    (wing_ultimate_load_factor ^ ((21 / 40) : ℝ))) * ((dive_param min_dive_vel) ^ ((69 / 200) :
    ℝ))

/-- aviary/subsystems/mass/gasp_based/control.py:224 -/
noncomputable def dscw_dulf (wing_surface_control_mass_coefficient wing_area design_gross_mass wing_ultimate_load_factor min_dive_vel : ℝ) : ℝ :=
  (((((21 / 40) * wing_surface_control_mass_coefficient) * (wing_area ^ ((317 / 1000) : ℝ))) *
    ((design_gross_mass / 1000) ^ ((301 / 500) : ℝ))) * (wing_ultimate_load_factor ^ ((-(19 /
    40)) : ℝ))) * ((dive_param min_dive_vel) ^ ((69 / 200) : ℝ))

/-- aviary/subsystems/mass/gasp_based/control.py:234 -/
noncomputable def dscw_dmdv (wing_surface_control_mass_coefficient wing_area design_gross_mass wing_ultimate_load_factor min_dive_vel : ℝ) : ℝ :=
  ((((((((((69 / 200) * wing_surface_control_mass_coefficient) * (wing_area ^ ((317 / 1000) :
    ℝ))) * ((design_gross_mass / 1000) ^ ((301 / 500) : ℝ))) * (wing_ultimate_load_factor ^ ((21
    / 40) : ℝ))) * ((dive_param min_dive_vel) ^ ((-(131 / 200)) : ℝ))) * 2) * (23 / 20)) *
    min_dive_vel) * (23 / 20)) / 391

/-- Output `wing_surface_control_mass` of `SurfaceControlMass.compute`, aviary/subsystems/mass/gasp_based/control.py:168 -/
noncomputable def out_wing_surface_control_mass (wing_surface_control_mass_coefficient wing_area design_gross_mass wing_ultimate_load_factor controls_cockpit_control_mass_scaler wing_surface_control_mass_scaler min_dive_vel controls_cockpit_control_mass : ℝ) : ℝ :=
  wing_control_wt wing_surface_control_mass_coefficient wing_area design_gross_mass
    wing_ultimate_load_factor controls_cockpit_control_mass_scaler
    wing_surface_control_mass_scaler min_dive_vel controls_cockpit_control_mass

/-- Partial of `wing_surface_control_mass` with respect to `wing_surface_control_mass_coefficient` as set by `SurfaceControlMass`, aviary/subsystems/mass/gasp_based/control.py:248 -/
noncomputable def J_wing_surface_control_mass__wing_surface_control_mass_coefficient (wing_area design_gross_mass wing_ultimate_load_factor wing_surface_control_mass_scaler min_dive_vel : ℝ) : ℝ :=
  dscw_dswcc wing_area design_gross_mass wing_ultimate_load_factor
    wing_surface_control_mass_scaler min_dive_vel

/-- Partial of `wing_surface_control_mass` with respect to `wing_area` as set by `SurfaceControlMass`, aviary/subsystems/mass/gasp_based/control.py:253 -/
noncomputable def J_wing_surface_control_mass__wing_area (wing_surface_control_mass_coefficient wing_area design_gross_mass wing_ultimate_load_factor min_dive_vel : ℝ) : ℝ :=
  dscw_dwa wing_surface_control_mass_coefficient wing_area design_gross_mass
    wing_ultimate_load_factor min_dive_vel

/-- Partial of `wing_surface_control_mass` with respect to `design_gross_mass` as set by `SurfaceControlMass`, aviary/subsystems/mass/gasp_based/control.py:255 -/
noncomputable def J_wing_surface_control_mass__design_gross_mass (wing_surface_control_mass_coefficient wing_area design_gross_mass wing_ultimate_load_factor wing_surface_control_mass_scaler min_dive_vel : ℝ) : ℝ :=
  wing_surface_control_mass_scaler * (dscw_dwg wing_surface_control_mass_coefficient wing_area
    design_gross_mass wing_ultimate_load_factor min_dive_vel)

/-- Partial of `wing_surface_control_mass` with respect to `wing_ultimate_load_factor` as set by `SurfaceControlMass`, aviary/subsystems/mass/gasp_based/control.py:257 -/
noncomputable def J_wing_surface_control_mass__wing_ultimate_load_factor (wing_surface_control_mass_coefficient wing_area design_gross_mass wing_ultimate_load_factor min_dive_vel : ℝ) : ℝ :=
  dscw_dulf wing_surface_control_mass_coefficient wing_area design_gross_mass
    wing_ultimate_load_factor min_dive_vel

/-- Partial of `wing_surface_control_mass` with respect to `wing_surface_control_mass_scaler` as set by `SurfaceControlMass`, aviary/subsystems/mass/gasp_based/control.py:261 -/
noncomputable def J_wing_surface_control_mass__wing_surface_control_mass_scaler (wing_surface_control_mass_coefficient wing_area design_gross_mass wing_ultimate_load_factor controls_cockpit_control_mass_scaler min_dive_vel controls_cockpit_control_mass : ℝ) : ℝ :=
  (intermediate_control_wt wing_surface_control_mass_coefficient wing_area design_gross_mass
    wing_ultimate_load_factor min_dive_vel) - (intermediate_cockpit_control_wt
    controls_cockpit_control_mass_scaler controls_cockpit_control_mass)

/-- Partial of `wing_surface_control_mass` with respect to `min_dive_vel` as set by `SurfaceControlMass`, aviary/subsystems/mass/gasp_based/control.py:265 -/
noncomputable def J_wing_surface_control_mass__min_dive_vel (wing_surface_control_mass_coefficient wing_area design_gross_mass wing_ultimate_load_factor min_dive_vel : ℝ) : ℝ :=
  dscw_dmdv wing_surface_control_mass_coefficient wing_area design_gross_mass
    wing_ultimate_load_factor min_dive_vel

/-- Partial of `wing_surface_control_mass` with respect to `controls_cockpit_control_mass` as set by `SurfaceControlMass`, aviary/subsystems/mass/gasp_based/control.py:267 -/
noncomputable def J_wing_surface_control_mass__controls_cockpit_control_mass (controls_cockpit_control_mass_scaler wing_surface_control_mass_scaler : ℝ) : ℝ :=
  (-wing_surface_control_mass_scaler) / controls_cockpit_control_mass_scaler

/-- Partial of `wing_surface_control_mass` with respect to `controls_cockpit_control_mass_scaler` as set by `SurfaceControlMass`, aviary/subsystems/mass/gasp_based/control.py:269 -/
noncomputable def J_wing_surface_control_mass__controls_cockpit_control_mass_scaler (controls_cockpit_control_mass_scaler wing_surface_control_mass_scaler controls_cockpit_control_mass : ℝ) : ℝ :=
  (wing_surface_control_mass_scaler * controls_cockpit_control_mass) /
    (controls_cockpit_control_mass_scaler ^ 2)

theorem d_wing_surface_control_mass__wing_surface_control_mass_coefficient
    (wing_surface_control_mass_coefficient wing_area design_gross_mass wing_ultimate_load_factor
    controls_cockpit_control_mass_scaler wing_surface_control_mass_scaler min_dive_vel
    controls_cockpit_control_mass : ℝ) (h0 : 0 < wing_area) (h1 : 0 < design_gross_mass) (h2 : 0 <
    wing_ultimate_load_factor) (h3 : 0 < min_dive_vel) (h4 : 0 <
    controls_cockpit_control_mass_scaler) :
    HasDerivAt (fun t => out_wing_surface_control_mass t wing_area design_gross_mass wing_ultimate_load_factor controls_cockpit_control_mass_scaler wing_surface_control_mass_scaler min_dive_vel controls_cockpit_control_mass) (J_wing_surface_control_mass__wing_surface_control_mass_coefficient wing_area design_gross_mass wing_ultimate_load_factor wing_surface_control_mass_scaler min_dive_vel) wing_surface_control_mass_coefficient := by
  simp only [out_wing_surface_control_mass, J_wing_surface_control_mass__wing_surface_control_mass_coefficient, dscw_dswcc, wing_control_wt, intermediate_cockpit_control_wt, intermediate_control_wt, dive_param]
  (apply hasDerivAt_of_eq; on_goal 1 => (repeat' comp_step))
  all_goals try comp_side
  all_goals try simp only [mul_zero, zero_mul, add_zero, zero_add, sub_zero, zero_sub, mul_one, one_mul]
  all_goals try push_cast
  all_goals comp_eq

theorem d_wing_surface_control_mass__design_gross_mass (wing_surface_control_mass_coefficient
    wing_area design_gross_mass wing_ultimate_load_factor controls_cockpit_control_mass_scaler
    wing_surface_control_mass_scaler min_dive_vel controls_cockpit_control_mass : ℝ) (h0 : 0 <
    wing_area) (h1 : 0 < design_gross_mass) (h2 : 0 < wing_ultimate_load_factor) (h3 : 0 <
    min_dive_vel) (h4 : 0 < controls_cockpit_control_mass_scaler) :
    HasDerivAt (fun t => out_wing_surface_control_mass wing_surface_control_mass_coefficient wing_area t wing_ultimate_load_factor controls_cockpit_control_mass_scaler wing_surface_control_mass_scaler min_dive_vel controls_cockpit_control_mass) (J_wing_surface_control_mass__design_gross_mass wing_surface_control_mass_coefficient wing_area design_gross_mass wing_ultimate_load_factor wing_surface_control_mass_scaler min_dive_vel) design_gross_mass := by
  have e0 : ∀ x : ℝ, 0 < x → x ^ ((-(199 / 500)) : ℝ) = x ^ ((301 / 500) : ℝ) / x ^ 1 := fun x hx => rpow_down hx 1 (by norm_num)
  simp only [out_wing_surface_control_mass, J_wing_surface_control_mass__design_gross_mass, dscw_dwg, wing_control_wt, intermediate_cockpit_control_wt, intermediate_control_wt, dive_param]
  (apply hasDerivAt_of_eq; on_goal 1 => (repeat' comp_step))
  all_goals try comp_side
  all_goals try simp (disch := first | assumption | positivity) only [e0]
  all_goals try simp only [mul_zero, zero_mul, add_zero, zero_add, sub_zero, zero_sub, mul_one, one_mul]
  all_goals try push_cast
  all_goals comp_eq

theorem d_wing_surface_control_mass__controls_cockpit_control_mass_scaler
    (wing_surface_control_mass_coefficient wing_area design_gross_mass wing_ultimate_load_factor
    controls_cockpit_control_mass_scaler wing_surface_control_mass_scaler min_dive_vel
    controls_cockpit_control_mass : ℝ) (h0 : 0 < wing_area) (h1 : 0 < design_gross_mass) (h2 : 0 <
    wing_ultimate_load_factor) (h3 : 0 < min_dive_vel) (h4 : 0 <
    controls_cockpit_control_mass_scaler) :
    HasDerivAt (fun t => out_wing_surface_control_mass wing_surface_control_mass_coefficient wing_area design_gross_mass wing_ultimate_load_factor t wing_surface_control_mass_scaler min_dive_vel controls_cockpit_control_mass) (J_wing_surface_control_mass__controls_cockpit_control_mass_scaler controls_cockpit_control_mass_scaler wing_surface_control_mass_scaler controls_cockpit_control_mass) controls_cockpit_control_mass_scaler := by
  simp only [out_wing_surface_control_mass, J_wing_surface_control_mass__controls_cockpit_control_mass_scaler, wing_control_wt, intermediate_cockpit_control_wt, intermediate_control_wt, dive_param]
  (apply hasDerivAt_of_eq; on_goal 1 => (repeat' comp_step))
  all_goals try comp_side
  all_goals try simp only [mul_zero, zero_mul, add_zero, zero_add, sub_zero, zero_sub, mul_one, one_mul]
  all_goals try push_cast
  all_goals comp_eq

theorem d_wing_surface_control_mass__wing_surface_control_mass_scaler
    (wing_surface_control_mass_coefficient wing_area design_gross_mass wing_ultimate_load_factor
    controls_cockpit_control_mass_scaler wing_surface_control_mass_scaler min_dive_vel
    controls_cockpit_control_mass : ℝ) (h0 : 0 < wing_area) (h1 : 0 < design_gross_mass) (h2 : 0 <
    wing_ultimate_load_factor) (h3 : 0 < min_dive_vel) (h4 : 0 <
    controls_cockpit_control_mass_scaler) :
    HasDerivAt (fun t => out_wing_surface_control_mass wing_surface_control_mass_coefficient wing_area design_gross_mass wing_ultimate_load_factor controls_cockpit_control_mass_scaler t min_dive_vel controls_cockpit_control_mass) (J_wing_surface_control_mass__wing_surface_control_mass_scaler wing_surface_control_mass_coefficient wing_area design_gross_mass wing_ultimate_load_factor controls_cockpit_control_mass_scaler min_dive_vel controls_cockpit_control_mass) wing_surface_control_mass_scaler := by
  simp only [out_wing_surface_control_mass, J_wing_surface_control_mass__wing_surface_control_mass_scaler, wing_control_wt, intermediate_cockpit_control_wt, intermediate_control_wt, dive_param]
  (apply hasDerivAt_of_eq; on_goal 1 => (repeat' comp_step))
  all_goals try comp_side
  all_goals try simp only [mul_zero, zero_mul, add_zero, zero_add, sub_zero, zero_sub, mul_one, one_mul]
  all_goals try push_cast
  all_goals comp_eq

theorem d_wing_surface_control_mass__controls_cockpit_control_mass
    (wing_surface_control_mass_coefficient wing_area design_gross_mass wing_ultimate_load_factor
    controls_cockpit_control_mass_scaler wing_surface_control_mass_scaler min_dive_vel
    controls_cockpit_control_mass : ℝ) (h0 : 0 < wing_area) (h1 : 0 < design_gross_mass) (h2 : 0 <
    wing_ultimate_load_factor) (h3 : 0 < min_dive_vel) (h4 : 0 <
    controls_cockpit_control_mass_scaler) :
    HasDerivAt (fun t => out_wing_surface_control_mass wing_surface_control_mass_coefficient wing_area design_gross_mass wing_ultimate_load_factor controls_cockpit_control_mass_scaler wing_surface_control_mass_scaler min_dive_vel t) (J_wing_surface_control_mass__controls_cockpit_control_mass controls_cockpit_control_mass_scaler wing_surface_control_mass_scaler) controls_cockpit_control_mass := by
  simp only [out_wing_surface_control_mass, J_wing_surface_control_mass__controls_cockpit_control_mass, wing_control_wt, intermediate_cockpit_control_wt, intermediate_control_wt, dive_param]
  (apply hasDerivAt_of_eq; on_goal 1 => (repeat' comp_step))
  all_goals try comp_side
  all_goals try simp only [mul_zero, zero_mul, add_zero, zero_add, sub_zero, zero_sub, mul_one, one_mul]
  all_goals try push_cast
  all_goals comp_eq

/-- Partial derivatives of `SurfaceControlMass` that are proved correct (the rest is listed in the header). -/
theorem partials_partial (wing_surface_control_mass_coefficient wing_area design_gross_mass
    wing_ultimate_load_factor controls_cockpit_control_mass_scaler
    wing_surface_control_mass_scaler min_dive_vel controls_cockpit_control_mass : ℝ) (h0 : 0 <
    wing_area) (h1 : 0 < design_gross_mass) (h2 : 0 < wing_ultimate_load_factor) (h3 : 0 <
    min_dive_vel) (h4 : 0 < controls_cockpit_control_mass_scaler) :
    HasDerivAt (fun t => out_wing_surface_control_mass t wing_area design_gross_mass
      wing_ultimate_load_factor controls_cockpit_control_mass_scaler
      wing_surface_control_mass_scaler min_dive_vel controls_cockpit_control_mass)
      (J_wing_surface_control_mass__wing_surface_control_mass_coefficient wing_area
      design_gross_mass wing_ultimate_load_factor wing_surface_control_mass_scaler min_dive_vel)
      wing_surface_control_mass_coefficient ∧
    HasDerivAt (fun t => out_wing_surface_control_mass wing_surface_control_mass_coefficient wing_area
      t wing_ultimate_load_factor controls_cockpit_control_mass_scaler
      wing_surface_control_mass_scaler min_dive_vel controls_cockpit_control_mass)
      (J_wing_surface_control_mass__design_gross_mass wing_surface_control_mass_coefficient
      wing_area design_gross_mass wing_ultimate_load_factor wing_surface_control_mass_scaler
      min_dive_vel) design_gross_mass ∧
    HasDerivAt (fun t => out_wing_surface_control_mass wing_surface_control_mass_coefficient wing_area
      design_gross_mass wing_ultimate_load_factor t wing_surface_control_mass_scaler min_dive_vel
      controls_cockpit_control_mass)
      (J_wing_surface_control_mass__controls_cockpit_control_mass_scaler
      controls_cockpit_control_mass_scaler wing_surface_control_mass_scaler
      controls_cockpit_control_mass) controls_cockpit_control_mass_scaler ∧
    HasDerivAt (fun t => out_wing_surface_control_mass wing_surface_control_mass_coefficient wing_area
      design_gross_mass wing_ultimate_load_factor controls_cockpit_control_mass_scaler t
      min_dive_vel controls_cockpit_control_mass)
      (J_wing_surface_control_mass__wing_surface_control_mass_scaler
      wing_surface_control_mass_coefficient wing_area design_gross_mass wing_ultimate_load_factor
      controls_cockpit_control_mass_scaler min_dive_vel controls_cockpit_control_mass)
      wing_surface_control_mass_scaler ∧
    HasDerivAt (fun t => out_wing_surface_control_mass wing_surface_control_mass_coefficient wing_area
      design_gross_mass wing_ultimate_load_factor controls_cockpit_control_mass_scaler
      wing_surface_control_mass_scaler min_dive_vel t)
      (J_wing_surface_control_mass__controls_cockpit_control_mass
      controls_cockpit_control_mass_scaler wing_surface_control_mass_scaler)
      controls_cockpit_control_mass :=
  ⟨d_wing_surface_control_mass__wing_surface_control_mass_coefficient _ _ _ _ _ _ _ _ h0 h1 h2 h3
    h4, d_wing_surface_control_mass__design_gross_mass _ _ _ _ _ _ _ _ h0 h1 h2 h3 h4,
    d_wing_surface_control_mass__controls_cockpit_control_mass_scaler _ _ _ _ _ _ _ _ h0 h1 h2 h3
    h4, d_wing_surface_control_mass__wing_surface_control_mass_scaler _ _ _ _ _ _ _ _ h0 h1 h2 h3
    h4, d_wing_surface_control_mass__controls_cockpit_control_mass _ _ _ _ _ _ _ _ h0 h1 h2 h3 h4⟩

example : ∃ wing_surface_control_mass_coefficient wing_area design_gross_mass
      wing_ultimate_load_factor controls_cockpit_control_mass_scaler
      wing_surface_control_mass_scaler min_dive_vel controls_cockpit_control_mass : ℝ,
      0 < wing_area ∧
      0 < design_gross_mass ∧
      0 < wing_ultimate_load_factor ∧
      0 < min_dive_vel ∧
      0 < controls_cockpit_control_mass_scaler :=
  ⟨0, 1, 1, 1, 1, 0, 1, 0, by comp_example, by comp_example, by comp_example, by comp_example, by
    comp_example⟩

/-- The entry for `wing_surface_control_mass` by `min_dive_vel` leaves out the factor `wing_surface_control_mass_scaler`: where it is not zero it cannot be the
derivative both for `wing_surface_control_mass_scaler = 1` and for `wing_surface_control_mass_scaler = 2`. -/
theorem J_wing_surface_control_mass__min_dive_vel_violated (wing_surface_control_mass_coefficient
    wing_area design_gross_mass wing_ultimate_load_factor controls_cockpit_control_mass_scaler
    min_dive_vel controls_cockpit_control_mass : ℝ) (hJ :
    J_wing_surface_control_mass__min_dive_vel wing_surface_control_mass_coefficient wing_area
    design_gross_mass wing_ultimate_load_factor min_dive_vel ≠ 0) :
    ¬ (HasDerivAt (fun t => out_wing_surface_control_mass wing_surface_control_mass_coefficient
      wing_area design_gross_mass wing_ultimate_load_factor controls_cockpit_control_mass_scaler 1
      t controls_cockpit_control_mass) (J_wing_surface_control_mass__min_dive_vel
      wing_surface_control_mass_coefficient wing_area design_gross_mass wing_ultimate_load_factor
      min_dive_vel) min_dive_vel ∧ HasDerivAt (fun t => out_wing_surface_control_mass
      wing_surface_control_mass_coefficient wing_area design_gross_mass wing_ultimate_load_factor
      controls_cockpit_control_mass_scaler 2 t controls_cockpit_control_mass)
      (J_wing_surface_control_mass__min_dive_vel wing_surface_control_mass_coefficient wing_area
      design_gross_mass wing_ultimate_load_factor min_dive_vel) min_dive_vel) := by
  rintro ⟨h1, h2⟩
  have e : (fun t => out_wing_surface_control_mass wing_surface_control_mass_coefficient wing_area
      design_gross_mass wing_ultimate_load_factor controls_cockpit_control_mass_scaler 2 t
      controls_cockpit_control_mass) = fun t => 2 * out_wing_surface_control_mass
      wing_surface_control_mass_coefficient wing_area design_gross_mass wing_ultimate_load_factor
      controls_cockpit_control_mass_scaler 1 t controls_cockpit_control_mass := by
    funext t; simp only [out_wing_surface_control_mass, wing_control_wt,
      intermediate_cockpit_control_wt, intermediate_control_wt, dive_param]; ring
  rw [e] at h2
  have := h2.unique (h1.const_mul 2)
  exact hJ (by linarith)

example : J_wing_surface_control_mass__min_dive_vel (1) (1) (1) (1) (1) ≠ 0 := by
  simp only [J_wing_surface_control_mass__min_dive_vel, dscw_dmdv, dive_param]
  first | positivity | (norm_num; done) | (norm_num; positivity)

/-- The entry for `wing_surface_control_mass` by `wing_area` leaves out the factor `wing_surface_control_mass_scaler`: where it is not zero it cannot be the
derivative both for `wing_surface_control_mass_scaler = 1` and for `wing_surface_control_mass_scaler = 2`. -/
theorem J_wing_surface_control_mass__wing_area_violated (wing_surface_control_mass_coefficient
    wing_area design_gross_mass wing_ultimate_load_factor controls_cockpit_control_mass_scaler
    min_dive_vel controls_cockpit_control_mass : ℝ) (hJ : J_wing_surface_control_mass__wing_area
    wing_surface_control_mass_coefficient wing_area design_gross_mass wing_ultimate_load_factor
    min_dive_vel ≠ 0) :
    ¬ (HasDerivAt (fun t => out_wing_surface_control_mass wing_surface_control_mass_coefficient t
      design_gross_mass wing_ultimate_load_factor controls_cockpit_control_mass_scaler 1
      min_dive_vel controls_cockpit_control_mass) (J_wing_surface_control_mass__wing_area
      wing_surface_control_mass_coefficient wing_area design_gross_mass wing_ultimate_load_factor
      min_dive_vel) wing_area ∧ HasDerivAt (fun t => out_wing_surface_control_mass
      wing_surface_control_mass_coefficient t design_gross_mass wing_ultimate_load_factor
      controls_cockpit_control_mass_scaler 2 min_dive_vel controls_cockpit_control_mass)
      (J_wing_surface_control_mass__wing_area wing_surface_control_mass_coefficient wing_area
      design_gross_mass wing_ultimate_load_factor min_dive_vel) wing_area) := by
  rintro ⟨h1, h2⟩
  have e : (fun t => out_wing_surface_control_mass wing_surface_control_mass_coefficient t
      design_gross_mass wing_ultimate_load_factor controls_cockpit_control_mass_scaler 2
      min_dive_vel controls_cockpit_control_mass) = fun t => 2 * out_wing_surface_control_mass
      wing_surface_control_mass_coefficient t design_gross_mass wing_ultimate_load_factor
      controls_cockpit_control_mass_scaler 1 min_dive_vel controls_cockpit_control_mass := by
    funext t; simp only [out_wing_surface_control_mass, wing_control_wt,
      intermediate_cockpit_control_wt, intermediate_control_wt, dive_param]; ring
  rw [e] at h2
  have := h2.unique (h1.const_mul 2)
  exact hJ (by linarith)

example : J_wing_surface_control_mass__wing_area (1) (1) (1) (1) (1) ≠ 0 := by
  simp only [J_wing_surface_control_mass__wing_area, dscw_dwa, dive_param]
  first | positivity | (norm_num; done) | (norm_num; positivity)

/-- The entry for `wing_surface_control_mass` by `wing_ultimate_load_factor` leaves out the factor `wing_surface_control_mass_scaler`: where it is not zero it cannot be the
derivative both for `wing_surface_control_mass_scaler = 1` and for `wing_surface_control_mass_scaler = 2`. -/
theorem J_wing_surface_control_mass__wing_ultimate_load_factor_violated
    (wing_surface_control_mass_coefficient wing_area design_gross_mass wing_ultimate_load_factor
    controls_cockpit_control_mass_scaler min_dive_vel controls_cockpit_control_mass : ℝ) (hJ :
    J_wing_surface_control_mass__wing_ultimate_load_factor wing_surface_control_mass_coefficient
    wing_area design_gross_mass wing_ultimate_load_factor min_dive_vel ≠ 0) :
    ¬ (HasDerivAt (fun t => out_wing_surface_control_mass wing_surface_control_mass_coefficient
      wing_area design_gross_mass t controls_cockpit_control_mass_scaler 1 min_dive_vel
      controls_cockpit_control_mass) (J_wing_surface_control_mass__wing_ultimate_load_factor
      wing_surface_control_mass_coefficient wing_area design_gross_mass wing_ultimate_load_factor
      min_dive_vel) wing_ultimate_load_factor ∧ HasDerivAt (fun t => out_wing_surface_control_mass
      wing_surface_control_mass_coefficient wing_area design_gross_mass t
      controls_cockpit_control_mass_scaler 2 min_dive_vel controls_cockpit_control_mass)
      (J_wing_surface_control_mass__wing_ultimate_load_factor
      wing_surface_control_mass_coefficient wing_area design_gross_mass wing_ultimate_load_factor
      min_dive_vel) wing_ultimate_load_factor) := by
  rintro ⟨h1, h2⟩
  have e : (fun t => out_wing_surface_control_mass wing_surface_control_mass_coefficient wing_area
      design_gross_mass t controls_cockpit_control_mass_scaler 2 min_dive_vel
      controls_cockpit_control_mass) = fun t => 2 * out_wing_surface_control_mass
      wing_surface_control_mass_coefficient wing_area design_gross_mass t
      controls_cockpit_control_mass_scaler 1 min_dive_vel controls_cockpit_control_mass := by
    funext t; simp only [out_wing_surface_control_mass, wing_control_wt,
      intermediate_cockpit_control_wt, intermediate_control_wt, dive_param]; ring
  rw [e] at h2
  have := h2.unique (h1.const_mul 2)
  exact hJ (by linarith)

example : J_wing_surface_control_mass__wing_ultimate_load_factor (1) (1) (1) (1) (1) ≠ 0 := by
  simp only [J_wing_surface_control_mass__wing_ultimate_load_factor, dscw_dulf, dive_param]
  first | positivity | (norm_num; done) | (norm_num; positivity)

end Verif.Comp.MassGaspBasedControl.SurfaceControlMass

