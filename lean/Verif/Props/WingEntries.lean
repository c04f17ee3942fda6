import Verif.Comp.MassFlopsBasedWingCommon
import Verif.Comp.MassGaspBasedFixed1
import Verif.Comp.MassGaspBasedFixed2
import Verif.Comp.MassGaspBasedFixed3
import Verif.Comp.MassGaspBasedFixed4
import Verif.Comp.MassGaspBasedFixed5
import Verif.Props.BwbVolume

/-! # The entries of the wing bending mass and of the high lift devices left open

The mechanical translation of `WingBendingMass`
(aviary/subsystems/mass/flops_based/wing_common.py:9-219) left eight declared derivatives without
proof, and that of the seven variants of `HighLiftMass`
(aviary/subsystems/mass/gasp_based/fixed.py:1353-2146) left sixty six.  All of them are settled
here, by the chain rule through the bending material factor `W1NIR`, the ratio of body to span, and
the areas of flap and slat.  The mass of a split flap jumps where the flap speed passes 160 knots. -/

set_option linter.all false

namespace Verif.WingEntries
open Real
open Verif.BwbVolume (deriv_as)

/-- a function that is affine has its coefficient as slope -/
theorem affine_slope {f : ℝ → ℝ} (a : ℝ) (h : ∀ y, f y = a * y + f 0) (x : ℝ) :
    HasDerivAt f a x :=
  deriv_as ((((hasDerivAt_id x).const_mul a).add_const (f 0))) (fun y => by simpa using h y)
    (by simp)

/-- the bending mass through the bending material factor -/
theorem bend_chain {w : ℝ → ℝ} {t w' : ℝ} (h : HasDerivAt w w' t) (hne : 1 + w t ≠ 0)
    (a p q s : ℝ) :
    HasDerivAt (fun y => ((((a * w y + p) + q) / (1 + w y)) - p - q) * s)
      (s * (a * (1 / (1 + w t)) - ((a * w t + p) + q) * (1 / (1 + w t)) ^ 2) * w') t := by
  have h1 := ((((h.const_mul a).add_const p).add_const q).div (h.const_add 1) hne)
  refine deriv_as (((h1.sub_const p).sub_const q).mul_const s) (fun _ => rfl) ?_
  field_simp

/-- the factor of the variable sweep -/
theorem sweep_slope (v x : ℝ) (hc : cos (π / 180 * x) ≠ 0) :
    HasDerivAt (fun y => 1 + v * ((24 / 25) / cos (π / 180 * y) - 1))
      (v * (π / 180) * ((24 / 25) / cos (π / 180 * x)) * tan (π / 180 * x)) x := by
  have h0 : HasDerivAt (fun y : ℝ => π / 180 * y) (π / 180) x := by
    simpa using (hasDerivAt_id x).const_mul (π / 180)
  have h1 := ((hasDerivAt_const x (24 / 25 : ℝ)).div h0.cos hc)
  refine deriv_as (((h1.sub_const 1).const_mul v).const_add 1) (fun _ => rfl) ?_
  rw [tan_eq_sin_div_cos]
  field_simp
  ring

/-- the factor of the span -/
theorem span_slope (b : ℝ) (hb : 0 < b) :
    HasDerivAt (fun y => (1 + ((25 / 4) / y) ^ ((1 / 2) : ℝ)) * y)
      (((-(25 / 8)) / ((((25 / 4) / b) ^ ((1 / 2) : ℝ) * b) * b)) * b
        + (1 + ((25 / 4) / b) ^ ((1 / 2) : ℝ))) b := by
  have hp : 0 < (25 / 4 : ℝ) / b := by positivity
  have h0 : HasDerivAt (fun y : ℝ => (25 / 4 : ℝ) / y) (-(25 / 4) / b ^ 2) b := by
    refine deriv_as ((hasDerivAt_const b (25 / 4 : ℝ)).div (hasDerivAt_id b) hb.ne')
      (fun _ => rfl) ?_
    simp
  have h1 : HasDerivAt (fun y : ℝ => √((25 / 4 : ℝ) / y)) _ b := h0.sqrt hp.ne'
  have e : ∀ z : ℝ, z ^ ((1 / 2) : ℝ) = √z := fun z => (sqrt_eq_rpow z).symm
  refine deriv_as ((h1.const_add 1).mul (hasDerivAt_id b)) (fun y => by simp only [e]; rfl) ?_
  rw [e]
  have hs : √(25 / 4 / b) ≠ 0 := (sqrt_pos.mpr hp).ne'
  simp only [id]
  generalize √(25 / 4 / b) = s at hs
  field_simp
  ring

section bending
open Verif.Comp.MassFlopsBasedWingCommon.WingBendingMass

/-- the declared derivative of the bending material mass by `wing_bending_material_factor` is right,
aviary/subsystems/mass/flops_based/wing_common.py:9-219 -/
theorem bending_bt (fuselage_num_fuselages wing_bending_material_factor wing_ultimate_load_factor wing_span wing_composite_fraction wing_aeroelastic_tailoring_factor wing_var_sweep_mass_penalty wing_load_fraction wing_sweep design_gross_mass wing_eng_pod_inertia_factor wing_bending_material_mass_scaler wing_shear_control_mass wing_shear_control_mass_scaler wing_misc_mass wing_misc_mass_scaler : ℝ)
    (hw : 1 + w1nir fuselage_num_fuselages wing_bending_material_factor wing_ultimate_load_factor wing_span wing_composite_fraction wing_aeroelastic_tailoring_factor wing_var_sweep_mass_penalty wing_load_fraction wing_sweep ≠ 0) :
    HasDerivAt (fun y => out_wing_bending_material_mass fuselage_num_fuselages y wing_ultimate_load_factor wing_span wing_composite_fraction wing_aeroelastic_tailoring_factor wing_var_sweep_mass_penalty wing_load_fraction wing_sweep design_gross_mass wing_eng_pod_inertia_factor wing_bending_material_mass_scaler wing_shear_control_mass wing_shear_control_mass_scaler wing_misc_mass wing_misc_mass_scaler)
      (J_wing_bending_material_mass__wing_bending_material_factor fuselage_num_fuselages wing_bending_material_factor wing_ultimate_load_factor wing_span wing_composite_fraction wing_aeroelastic_tailoring_factor wing_var_sweep_mass_penalty wing_load_fraction wing_sweep design_gross_mass wing_eng_pod_inertia_factor wing_bending_material_mass_scaler wing_shear_control_mass wing_shear_control_mass_scaler wing_misc_mass wing_misc_mass_scaler) wing_bending_material_factor := by
  have h : HasDerivAt (fun y => w1nir fuselage_num_fuselages y wing_ultimate_load_factor wing_span wing_composite_fraction wing_aeroelastic_tailoring_factor wing_var_sweep_mass_penalty wing_load_fraction wing_sweep) (dw1nir_bt fuselage_num_fuselages wing_ultimate_load_factor wing_span wing_composite_fraction wing_aeroelastic_tailoring_factor wing_var_sweep_mass_penalty wing_load_fraction wing_sweep) wing_bending_material_factor := by
    refine affine_slope _ (fun y => ?_) _
    simp only [w1nir, dw1nir_bt, vfact, vfact_2, dvfact_varswp, term, deg2rad, fact0, fact1, fact2, fact3]
    ring
  exact deriv_as (bend_chain h hw _ _ _ _) (fun _ => rfl) rfl

/-- the declared derivative of the bending material mass by `wing_ultimate_load_factor` is right,
aviary/subsystems/mass/flops_based/wing_common.py:9-219 -/
theorem bending_ulf (fuselage_num_fuselages wing_bending_material_factor wing_ultimate_load_factor wing_span wing_composite_fraction wing_aeroelastic_tailoring_factor wing_var_sweep_mass_penalty wing_load_fraction wing_sweep design_gross_mass wing_eng_pod_inertia_factor wing_bending_material_mass_scaler wing_shear_control_mass wing_shear_control_mass_scaler wing_misc_mass wing_misc_mass_scaler : ℝ)
    (hw : 1 + w1nir fuselage_num_fuselages wing_bending_material_factor wing_ultimate_load_factor wing_span wing_composite_fraction wing_aeroelastic_tailoring_factor wing_var_sweep_mass_penalty wing_load_fraction wing_sweep ≠ 0) :
    HasDerivAt (fun y => out_wing_bending_material_mass fuselage_num_fuselages wing_bending_material_factor y wing_span wing_composite_fraction wing_aeroelastic_tailoring_factor wing_var_sweep_mass_penalty wing_load_fraction wing_sweep design_gross_mass wing_eng_pod_inertia_factor wing_bending_material_mass_scaler wing_shear_control_mass wing_shear_control_mass_scaler wing_misc_mass wing_misc_mass_scaler)
      (J_wing_bending_material_mass__wing_ultimate_load_factor fuselage_num_fuselages wing_bending_material_factor wing_ultimate_load_factor wing_span wing_composite_fraction wing_aeroelastic_tailoring_factor wing_var_sweep_mass_penalty wing_load_fraction wing_sweep design_gross_mass wing_eng_pod_inertia_factor wing_bending_material_mass_scaler wing_shear_control_mass wing_shear_control_mass_scaler wing_misc_mass wing_misc_mass_scaler) wing_ultimate_load_factor := by
  have h : HasDerivAt (fun y => w1nir fuselage_num_fuselages wing_bending_material_factor y wing_span wing_composite_fraction wing_aeroelastic_tailoring_factor wing_var_sweep_mass_penalty wing_load_fraction wing_sweep) (dw1nir_ulf fuselage_num_fuselages wing_bending_material_factor wing_span wing_composite_fraction wing_aeroelastic_tailoring_factor wing_var_sweep_mass_penalty wing_load_fraction wing_sweep) wing_ultimate_load_factor := by
    refine affine_slope _ (fun y => ?_) _
    simp only [w1nir, dw1nir_ulf, vfact, vfact_2, dvfact_varswp, term, deg2rad, fact0, fact1, fact2, fact3]
    ring
  exact deriv_as (bend_chain h hw _ _ _ _) (fun _ => rfl) rfl

/-- the declared derivative of the bending material mass by `wing_load_fraction` is right,
aviary/subsystems/mass/flops_based/wing_common.py:9-219 -/
theorem bending_pctl (fuselage_num_fuselages wing_bending_material_factor wing_ultimate_load_factor wing_span wing_composite_fraction wing_aeroelastic_tailoring_factor wing_var_sweep_mass_penalty wing_load_fraction wing_sweep design_gross_mass wing_eng_pod_inertia_factor wing_bending_material_mass_scaler wing_shear_control_mass wing_shear_control_mass_scaler wing_misc_mass wing_misc_mass_scaler : ℝ)
    (hw : 1 + w1nir fuselage_num_fuselages wing_bending_material_factor wing_ultimate_load_factor wing_span wing_composite_fraction wing_aeroelastic_tailoring_factor wing_var_sweep_mass_penalty wing_load_fraction wing_sweep ≠ 0) :
    HasDerivAt (fun y => out_wing_bending_material_mass fuselage_num_fuselages wing_bending_material_factor wing_ultimate_load_factor wing_span wing_composite_fraction wing_aeroelastic_tailoring_factor wing_var_sweep_mass_penalty y wing_sweep design_gross_mass wing_eng_pod_inertia_factor wing_bending_material_mass_scaler wing_shear_control_mass wing_shear_control_mass_scaler wing_misc_mass wing_misc_mass_scaler)
      (J_wing_bending_material_mass__wing_load_fraction fuselage_num_fuselages wing_bending_material_factor wing_ultimate_load_factor wing_span wing_composite_fraction wing_aeroelastic_tailoring_factor wing_var_sweep_mass_penalty wing_load_fraction wing_sweep design_gross_mass wing_eng_pod_inertia_factor wing_bending_material_mass_scaler wing_shear_control_mass wing_shear_control_mass_scaler wing_misc_mass wing_misc_mass_scaler) wing_load_fraction := by
  have h : HasDerivAt (fun y => w1nir fuselage_num_fuselages wing_bending_material_factor wing_ultimate_load_factor wing_span wing_composite_fraction wing_aeroelastic_tailoring_factor wing_var_sweep_mass_penalty y wing_sweep) (dw1nir_pctl fuselage_num_fuselages wing_bending_material_factor wing_ultimate_load_factor wing_span wing_composite_fraction wing_aeroelastic_tailoring_factor wing_var_sweep_mass_penalty wing_sweep) wing_load_fraction := by
    refine affine_slope _ (fun y => ?_) _
    simp only [w1nir, dw1nir_pctl, vfact, vfact_2, dvfact_varswp, term, deg2rad, fact0, fact1, fact2, fact3]
    ring
  exact deriv_as (bend_chain h hw _ _ _ _) (fun _ => rfl) rfl

/-- the declared derivative of the bending material mass by `wing_composite_fraction` is right,
aviary/subsystems/mass/flops_based/wing_common.py:9-219 -/
theorem bending_compfrac (fuselage_num_fuselages wing_bending_material_factor wing_ultimate_load_factor wing_span wing_composite_fraction wing_aeroelastic_tailoring_factor wing_var_sweep_mass_penalty wing_load_fraction wing_sweep design_gross_mass wing_eng_pod_inertia_factor wing_bending_material_mass_scaler wing_shear_control_mass wing_shear_control_mass_scaler wing_misc_mass wing_misc_mass_scaler : ℝ)
    (hw : 1 + w1nir fuselage_num_fuselages wing_bending_material_factor wing_ultimate_load_factor wing_span wing_composite_fraction wing_aeroelastic_tailoring_factor wing_var_sweep_mass_penalty wing_load_fraction wing_sweep ≠ 0) :
    HasDerivAt (fun y => out_wing_bending_material_mass fuselage_num_fuselages wing_bending_material_factor wing_ultimate_load_factor wing_span y wing_aeroelastic_tailoring_factor wing_var_sweep_mass_penalty wing_load_fraction wing_sweep design_gross_mass wing_eng_pod_inertia_factor wing_bending_material_mass_scaler wing_shear_control_mass wing_shear_control_mass_scaler wing_misc_mass wing_misc_mass_scaler)
      (J_wing_bending_material_mass__wing_composite_fraction fuselage_num_fuselages wing_bending_material_factor wing_ultimate_load_factor wing_span wing_composite_fraction wing_aeroelastic_tailoring_factor wing_var_sweep_mass_penalty wing_load_fraction wing_sweep design_gross_mass wing_eng_pod_inertia_factor wing_bending_material_mass_scaler wing_shear_control_mass wing_shear_control_mass_scaler wing_misc_mass wing_misc_mass_scaler) wing_composite_fraction := by
  have h : HasDerivAt (fun y => w1nir fuselage_num_fuselages wing_bending_material_factor wing_ultimate_load_factor wing_span y wing_aeroelastic_tailoring_factor wing_var_sweep_mass_penalty wing_load_fraction wing_sweep) (dw1nir_compfrac fuselage_num_fuselages wing_bending_material_factor wing_ultimate_load_factor wing_span wing_aeroelastic_tailoring_factor wing_var_sweep_mass_penalty wing_load_fraction wing_sweep) wing_composite_fraction := by
    refine affine_slope _ (fun y => ?_) _
    simp only [w1nir, dw1nir_compfrac, vfact, vfact_2, dvfact_varswp, term, deg2rad, fact0, fact1, fact2, fact3]
    ring
  exact deriv_as (bend_chain h hw _ _ _ _) (fun _ => rfl) rfl

/-- the declared derivative of the bending material mass by `wing_aeroelastic_tailoring_factor` is right,
aviary/subsystems/mass/flops_based/wing_common.py:9-219 -/
theorem bending_faert (fuselage_num_fuselages wing_bending_material_factor wing_ultimate_load_factor wing_span wing_composite_fraction wing_aeroelastic_tailoring_factor wing_var_sweep_mass_penalty wing_load_fraction wing_sweep design_gross_mass wing_eng_pod_inertia_factor wing_bending_material_mass_scaler wing_shear_control_mass wing_shear_control_mass_scaler wing_misc_mass wing_misc_mass_scaler : ℝ)
    (hw : 1 + w1nir fuselage_num_fuselages wing_bending_material_factor wing_ultimate_load_factor wing_span wing_composite_fraction wing_aeroelastic_tailoring_factor wing_var_sweep_mass_penalty wing_load_fraction wing_sweep ≠ 0) :
    HasDerivAt (fun y => out_wing_bending_material_mass fuselage_num_fuselages wing_bending_material_factor wing_ultimate_load_factor wing_span wing_composite_fraction y wing_var_sweep_mass_penalty wing_load_fraction wing_sweep design_gross_mass wing_eng_pod_inertia_factor wing_bending_material_mass_scaler wing_shear_control_mass wing_shear_control_mass_scaler wing_misc_mass wing_misc_mass_scaler)
      (J_wing_bending_material_mass__wing_aeroelastic_tailoring_factor fuselage_num_fuselages wing_bending_material_factor wing_ultimate_load_factor wing_span wing_composite_fraction wing_aeroelastic_tailoring_factor wing_var_sweep_mass_penalty wing_load_fraction wing_sweep design_gross_mass wing_eng_pod_inertia_factor wing_bending_material_mass_scaler wing_shear_control_mass wing_shear_control_mass_scaler wing_misc_mass wing_misc_mass_scaler) wing_aeroelastic_tailoring_factor := by
  have h : HasDerivAt (fun y => w1nir fuselage_num_fuselages wing_bending_material_factor wing_ultimate_load_factor wing_span wing_composite_fraction y wing_var_sweep_mass_penalty wing_load_fraction wing_sweep) (dw1nir_faert fuselage_num_fuselages wing_bending_material_factor wing_ultimate_load_factor wing_span wing_composite_fraction wing_var_sweep_mass_penalty wing_load_fraction wing_sweep) wing_aeroelastic_tailoring_factor := by
    refine affine_slope _ (fun y => ?_) _
    simp only [w1nir, dw1nir_faert, vfact, vfact_2, dvfact_varswp, term, deg2rad, fact0, fact1, fact2, fact3]
    ring
  exact deriv_as (bend_chain h hw _ _ _ _) (fun _ => rfl) rfl

/-- the declared derivative of the bending material mass by `wing_var_sweep_mass_penalty` is right,
aviary/subsystems/mass/flops_based/wing_common.py:9-219 -/
theorem bending_varswp (fuselage_num_fuselages wing_bending_material_factor wing_ultimate_load_factor wing_span wing_composite_fraction wing_aeroelastic_tailoring_factor wing_var_sweep_mass_penalty wing_load_fraction wing_sweep design_gross_mass wing_eng_pod_inertia_factor wing_bending_material_mass_scaler wing_shear_control_mass wing_shear_control_mass_scaler wing_misc_mass wing_misc_mass_scaler : ℝ)
    (hw : 1 + w1nir fuselage_num_fuselages wing_bending_material_factor wing_ultimate_load_factor wing_span wing_composite_fraction wing_aeroelastic_tailoring_factor wing_var_sweep_mass_penalty wing_load_fraction wing_sweep ≠ 0) :
    HasDerivAt (fun y => out_wing_bending_material_mass fuselage_num_fuselages wing_bending_material_factor wing_ultimate_load_factor wing_span wing_composite_fraction wing_aeroelastic_tailoring_factor y wing_load_fraction wing_sweep design_gross_mass wing_eng_pod_inertia_factor wing_bending_material_mass_scaler wing_shear_control_mass wing_shear_control_mass_scaler wing_misc_mass wing_misc_mass_scaler)
      (J_wing_bending_material_mass__wing_var_sweep_mass_penalty fuselage_num_fuselages wing_bending_material_factor wing_ultimate_load_factor wing_span wing_composite_fraction wing_aeroelastic_tailoring_factor wing_var_sweep_mass_penalty wing_load_fraction wing_sweep design_gross_mass wing_eng_pod_inertia_factor wing_bending_material_mass_scaler wing_shear_control_mass wing_shear_control_mass_scaler wing_misc_mass wing_misc_mass_scaler) wing_var_sweep_mass_penalty := by
  have h : HasDerivAt (fun y => w1nir fuselage_num_fuselages wing_bending_material_factor wing_ultimate_load_factor wing_span wing_composite_fraction wing_aeroelastic_tailoring_factor y wing_load_fraction wing_sweep) (dw1nir_varswp fuselage_num_fuselages wing_bending_material_factor wing_ultimate_load_factor wing_span wing_composite_fraction wing_aeroelastic_tailoring_factor wing_load_fraction wing_sweep) wing_var_sweep_mass_penalty := by
    refine affine_slope _ (fun y => ?_) _
    simp only [w1nir, dw1nir_varswp, vfact, vfact_2, dvfact_varswp, term, deg2rad, fact0, fact1, fact2, fact3]
    ring
  exact deriv_as (bend_chain h hw _ _ _ _) (fun _ => rfl) rfl

/-- the declared derivative of the bending material mass by `wing_sweep` is right,
aviary/subsystems/mass/flops_based/wing_common.py:9-219 -/
theorem bending_sweep (fuselage_num_fuselages wing_bending_material_factor wing_ultimate_load_factor wing_span wing_composite_fraction wing_aeroelastic_tailoring_factor wing_var_sweep_mass_penalty wing_load_fraction wing_sweep design_gross_mass wing_eng_pod_inertia_factor wing_bending_material_mass_scaler wing_shear_control_mass wing_shear_control_mass_scaler wing_misc_mass wing_misc_mass_scaler : ℝ)
    (hw : 1 + w1nir fuselage_num_fuselages wing_bending_material_factor wing_ultimate_load_factor wing_span wing_composite_fraction wing_aeroelastic_tailoring_factor wing_var_sweep_mass_penalty wing_load_fraction wing_sweep ≠ 0) (hc : cos (π / 180 * wing_sweep) ≠ 0) :
    HasDerivAt (fun y => out_wing_bending_material_mass fuselage_num_fuselages wing_bending_material_factor wing_ultimate_load_factor wing_span wing_composite_fraction wing_aeroelastic_tailoring_factor wing_var_sweep_mass_penalty wing_load_fraction y design_gross_mass wing_eng_pod_inertia_factor wing_bending_material_mass_scaler wing_shear_control_mass wing_shear_control_mass_scaler wing_misc_mass wing_misc_mass_scaler)
      (J_wing_bending_material_mass__wing_sweep fuselage_num_fuselages wing_bending_material_factor wing_ultimate_load_factor wing_span wing_composite_fraction wing_aeroelastic_tailoring_factor wing_var_sweep_mass_penalty wing_load_fraction wing_sweep design_gross_mass wing_eng_pod_inertia_factor wing_bending_material_mass_scaler wing_shear_control_mass wing_shear_control_mass_scaler wing_misc_mass wing_misc_mass_scaler) wing_sweep := by
  have h : HasDerivAt (fun y => w1nir fuselage_num_fuselages wing_bending_material_factor wing_ultimate_load_factor wing_span wing_composite_fraction wing_aeroelastic_tailoring_factor wing_var_sweep_mass_penalty wing_load_fraction y) (dw1nir_sweep fuselage_num_fuselages wing_bending_material_factor wing_ultimate_load_factor wing_span wing_composite_fraction wing_aeroelastic_tailoring_factor wing_var_sweep_mass_penalty wing_load_fraction wing_sweep) wing_sweep := by
    refine deriv_as ((sweep_slope wing_var_sweep_mass_penalty wing_sweep hc).const_mul
      (44 / 5 * wing_bending_material_factor * (1 + (25 / 4 / wing_span) ^ ((1 / 2) : ℝ)) *
        wing_ultimate_load_factor * wing_span * (1 - 2 / 5 * wing_composite_fraction) *
        (1 - 1 / 10 * wing_aeroelastic_tailoring_factor) * cayf fuselage_num_fuselages *
        wing_load_fraction * (1 / 1000000))) (fun y => ?_) ?_
    · simp only [w1nir, vfact]; ring
    · simp only [dw1nir_sweep, dvfact_sweep, term, deg2rad, fact1, fact0, fact2, fact3]; ring
  exact deriv_as (bend_chain h hw _ _ _ _) (fun _ => rfl) rfl

/-- the declared derivative of the bending material mass by `wing_span` is right,
aviary/subsystems/mass/flops_based/wing_common.py:9-219 -/
theorem bending_span (fuselage_num_fuselages wing_bending_material_factor wing_ultimate_load_factor wing_span wing_composite_fraction wing_aeroelastic_tailoring_factor wing_var_sweep_mass_penalty wing_load_fraction wing_sweep design_gross_mass wing_eng_pod_inertia_factor wing_bending_material_mass_scaler wing_shear_control_mass wing_shear_control_mass_scaler wing_misc_mass wing_misc_mass_scaler : ℝ)
    (hw : 1 + w1nir fuselage_num_fuselages wing_bending_material_factor wing_ultimate_load_factor wing_span wing_composite_fraction wing_aeroelastic_tailoring_factor wing_var_sweep_mass_penalty wing_load_fraction wing_sweep ≠ 0) (hb : 0 < wing_span) :
    HasDerivAt (fun y => out_wing_bending_material_mass fuselage_num_fuselages wing_bending_material_factor wing_ultimate_load_factor y wing_composite_fraction wing_aeroelastic_tailoring_factor wing_var_sweep_mass_penalty wing_load_fraction wing_sweep design_gross_mass wing_eng_pod_inertia_factor wing_bending_material_mass_scaler wing_shear_control_mass wing_shear_control_mass_scaler wing_misc_mass wing_misc_mass_scaler)
      (J_wing_bending_material_mass__wing_span fuselage_num_fuselages wing_bending_material_factor wing_ultimate_load_factor wing_span wing_composite_fraction wing_aeroelastic_tailoring_factor wing_var_sweep_mass_penalty wing_load_fraction wing_sweep design_gross_mass wing_eng_pod_inertia_factor wing_bending_material_mass_scaler wing_shear_control_mass wing_shear_control_mass_scaler wing_misc_mass wing_misc_mass_scaler) wing_span := by
  have h : HasDerivAt (fun y => w1nir fuselage_num_fuselages wing_bending_material_factor wing_ultimate_load_factor y wing_composite_fraction wing_aeroelastic_tailoring_factor wing_var_sweep_mass_penalty wing_load_fraction wing_sweep) (dw1nir_span fuselage_num_fuselages wing_bending_material_factor wing_ultimate_load_factor wing_span wing_composite_fraction wing_aeroelastic_tailoring_factor wing_var_sweep_mass_penalty wing_load_fraction wing_sweep) wing_span := by
    refine deriv_as ((span_slope wing_span hb).const_mul
      (44 / 5 * wing_bending_material_factor *
        wing_ultimate_load_factor * (1 - 2 / 5 * wing_composite_fraction) *
        (1 - 1 / 10 * wing_aeroelastic_tailoring_factor) * cayf fuselage_num_fuselages *
        vfact wing_var_sweep_mass_penalty wing_sweep *
        wing_load_fraction * (1 / 1000000))) (fun y => ?_) ?_
    · simp only [w1nir]; ring
    · simp only [dw1nir_span, dfact1_span, fact1, fact0, fact2, fact3, vfact, vfact_2, term, deg2rad]; ring
  exact deriv_as (bend_chain h hw _ _ _ _) (fun _ => rfl) rfl

end bending

/-- the mass of the slats through their area -/
theorem slat_pow {k : ℝ → ℝ} {t k' : ℝ} (h : HasDerivAt k k' t) (hp : 0 < k t) :
    HasDerivAt (fun y => (82 / 25) * k y ^ ((113 / 100) : ℝ))
      (((4633 / 1250) * k t ^ ((13 / 100) : ℝ)) * k') t := by
  refine deriv_as ((h.rpow_const (p := (113 / 100 : ℝ)) (Or.inl hp.ne')).const_mul (82 / 25))
    (fun _ => rfl) ?_
  rw [show (113 / 100 : ℝ) - 1 = 13 / 100 by norm_num]
  ring

/-- the mass of Fowler flaps through their area -/
theorem fowler_pow {k : ℝ → ℝ} {t k' : ℝ} (h : HasDerivAt k k' t) (hp : 0 < k t) (c n : ℝ) :
    HasDerivAt (fun y => (c * k y ^ ((119 / 100) : ℝ)) / n)
      (((c * ((119 / 100) * k t ^ ((19 / 100) : ℝ))) * k') / n) t := by
  refine deriv_as (((h.rpow_const (p := (119 / 100 : ℝ)) (Or.inl hp.ne')).const_mul c).div_const n)
    (fun _ => rfl) ?_
  rw [show (119 / 100 : ℝ) - 1 = 19 / 100 by norm_num]
  ring

/-- the area of the slats through the ratio of body to span -/
theorem sle_chain {b : ℝ → ℝ} {t b' : ℝ} (h : HasDerivAt b b' t) (s a l r : ℝ) :
    HasDerivAt (fun y => (((s * a) / (1 + l)) * r) * (2 - ((1 - l) * ((99 / 100) + b y))))
      (((((-(s * a)) / (1 + l)) * r) * (1 - l)) * b') t := by
  refine deriv_as ((((h.const_add (99 / 100)).const_mul (1 - l)).const_sub 2).const_mul
    (((s * a) / (1 + l)) * r)) (fun _ => rfl) ?_
  ring

/-- the area of the flaps through the ratio of body to span -/
theorem sflap_chain {b : ℝ → ℝ} {t b' : ℝ} (h : HasDerivAt b b' t) (c a l f : ℝ)
    (hl : 1 + l ≠ 0) :
    HasDerivAt (fun y => (((c * a) / (1 + l)) * (f - b y)) * (2 - ((1 - l) * (f + b y))))
      (((c * a) * (((2 / (1 + l)) * ((2 * b t) - 1)) - (2 * b t))) * b') t := by
  refine deriv_as (((h.const_sub f).const_mul ((c * a) / (1 + l))).mul
    (((h.const_add f).const_mul (1 - l)).const_sub 2)) (fun _ => rfl) ?_
  field_simp
  ring

/-- the ratio of body to span by the relative thickness of the root -/
theorem btsr_tc (t b d c : ℝ) (hu : 0 < (t * c) * (d - t * c)) :
    HasDerivAt (fun y => ((2 * √((y * c) * (d - y * c))) + 2 / 5) / b)
      (((1 / b) * (1 / √((t * c) * (d - t * c)))) * ((c * d) - ((2 * t) * c ^ 2))) t := by
  have h0 : HasDerivAt (fun y : ℝ => y * c) c t := by simpa using (hasDerivAt_id t).mul_const c
  have h1 := (h0.mul (h0.const_sub d)).sqrt hu.ne'
  refine deriv_as (((h1.const_mul 2).add_const (2 / 5)).div_const b) (fun _ => rfl) ?_
  have hs := (sqrt_pos.mpr hu).ne'
  simp only [Pi.mul_apply]
  generalize √((t * c) * (d - t * c)) = s at *
  field_simp
  ring

/-- the ratio of body to span by the chord at the centre -/
theorem btsr_cc (t b d c : ℝ) (hu : 0 < (t * c) * (d - t * c)) :
    HasDerivAt (fun y => ((2 * √((t * y) * (d - t * y))) + 2 / 5) / b)
      (((1 / b) * (1 / √((t * c) * (d - t * c)))) * ((t * d) - ((2 * t ^ 2) * c))) c := by
  have h0 : HasDerivAt (fun y : ℝ => t * y) t c := by simpa using (hasDerivAt_id c).const_mul t
  have h1 := (h0.mul (h0.const_sub d)).sqrt hu.ne'
  refine deriv_as (((h1.const_mul 2).add_const (2 / 5)).div_const b) (fun _ => rfl) ?_
  have hs := (sqrt_pos.mpr hu).ne'
  simp only [Pi.mul_apply]
  generalize √((t * c) * (d - t * c)) = s at *
  field_simp
  ring

/-- the ratio of body to span by the diameter of the fuselage -/
theorem btsr_cw (t b d c : ℝ) (hu : 0 < (t * c) * (d - t * c)) :
    HasDerivAt (fun y => ((2 * √((t * c) * (y - t * c))) + 2 / 5) / b)
      (((1 / b) * (1 / √((t * c) * (d - t * c)))) * (t * c)) d := by
  have h1 := (((hasDerivAt_id d).sub_const (t * c)).const_mul (t * c)).sqrt hu.ne'
  refine deriv_as (((h1.const_mul 2).add_const (2 / 5)).div_const b) (fun _ => rfl) ?_
  have hs := (sqrt_pos.mpr hu).ne'
  simp only [id]
  generalize √((t * c) * (d - t * c)) = s at *
  field_simp

/-- the ratio of body to span by the span -/
theorem btsr_span (t b d c : ℝ) (hb : b ≠ 0) :
    HasDerivAt (fun y => ((2 * √((t * c) * (d - t * c))) + 2 / 5) / y)
      ((-(1 / b)) * (((2 * √((t * c) * (d - t * c))) + 2 / 5) / b)) b := by
  refine deriv_as ((hasDerivAt_const b ((2 * √((t * c) * (d - t * c))) + 2 / 5)).div
    (hasDerivAt_id b) hb) (fun _ => rfl) ?_
  simp only [id]
  field_simp
  ring

namespace plain
open Verif.Comp.MassGaspBasedFixed.HighLiftMass_plain

/-- the declared derivative of `slat_mass` by `fuselage_avg_diameter` is right,
aviary/subsystems/mass/gasp_based/fixed.py:1353-2146 -/
theorem slat_fuselage_avg_diameter (wing_area wing_slat_chord_ratio wing_taper_ratio wing_slat_span_ratio wing_thickness_to_chord_root wing_span fuselage_avg_diameter wing_center_chord : ℝ)
    (hl : 0 < wing_taper_ratio)
    (ht : 0 < wing_thickness_to_chord_root)
    (hc : 0 < wing_center_chord)
    (hd : 0 < fuselage_avg_diameter - (wing_thickness_to_chord_root * wing_center_chord))
    (hb : 0 < wing_span)
    (hs : 0 < wing_slat_chord_ratio)
    (ha : 0 < wing_area)
    (hr : 0 < wing_slat_span_ratio)
    (h8 : 0 < 2 - ((1 - wing_taper_ratio) * ((99 / 100) + (((2 * (sqrt ((wing_thickness_to_chord_root * wing_center_chord) * (fuselage_avg_diameter - (wing_thickness_to_chord_root * wing_center_chord))))) + (2 / 5)) / wing_span)))) :
    HasDerivAt (fun y => out_slat_mass wing_area wing_slat_chord_ratio wing_taper_ratio wing_slat_span_ratio wing_thickness_to_chord_root wing_span y wing_center_chord)
      (J_slat_mass__fuselage_avg_diameter wing_area wing_slat_chord_ratio wing_taper_ratio wing_slat_span_ratio wing_thickness_to_chord_root wing_span fuselage_avg_diameter wing_center_chord) fuselage_avg_diameter := by
  have hu : 0 < (wing_thickness_to_chord_root * wing_center_chord) * (fuselage_avg_diameter - wing_thickness_to_chord_root * wing_center_chord) := mul_pos (mul_pos ht hc) hd
  have hk : 0 < sle wing_area wing_slat_chord_ratio wing_taper_ratio wing_slat_span_ratio wing_thickness_to_chord_root wing_span fuselage_avg_diameter wing_center_chord := by
    unfold sle body_to_span_ratio
    have := mul_pos (mul_pos (div_pos (mul_pos hs ha) (show 0 < 1 + wing_taper_ratio by linarith)) hr) h8
    exact this
  refine deriv_as (slat_pow (sle_chain (btsr_cw wing_thickness_to_chord_root wing_span fuselage_avg_diameter wing_center_chord hu) wing_slat_chord_ratio wing_area wing_taper_ratio wing_slat_span_ratio) hk) (fun _ => rfl) ?_
  simp only [J_slat_mass__fuselage_avg_diameter, sle_2, body_to_span_ratio_2, u1, dsle_dbtsr, dbtsr_dcw]
  ring

/-- the declared derivative of `slat_mass` by `wing_center_chord` is right,
aviary/subsystems/mass/gasp_based/fixed.py:1353-2146 -/
theorem slat_wing_center_chord (wing_area wing_slat_chord_ratio wing_taper_ratio wing_slat_span_ratio wing_thickness_to_chord_root wing_span fuselage_avg_diameter wing_center_chord : ℝ)
    (hl : 0 < wing_taper_ratio)
    (ht : 0 < wing_thickness_to_chord_root)
    (hc : 0 < wing_center_chord)
    (hd : 0 < fuselage_avg_diameter - (wing_thickness_to_chord_root * wing_center_chord))
    (hb : 0 < wing_span)
    (hs : 0 < wing_slat_chord_ratio)
    (ha : 0 < wing_area)
    (hr : 0 < wing_slat_span_ratio)
    (h8 : 0 < 2 - ((1 - wing_taper_ratio) * ((99 / 100) + (((2 * (sqrt ((wing_thickness_to_chord_root * wing_center_chord) * (fuselage_avg_diameter - (wing_thickness_to_chord_root * wing_center_chord))))) + (2 / 5)) / wing_span)))) :
    HasDerivAt (fun y => out_slat_mass wing_area wing_slat_chord_ratio wing_taper_ratio wing_slat_span_ratio wing_thickness_to_chord_root wing_span fuselage_avg_diameter y)
      (J_slat_mass__wing_center_chord wing_area wing_slat_chord_ratio wing_taper_ratio wing_slat_span_ratio wing_thickness_to_chord_root wing_span fuselage_avg_diameter wing_center_chord) wing_center_chord := by
  have hu : 0 < (wing_thickness_to_chord_root * wing_center_chord) * (fuselage_avg_diameter - wing_thickness_to_chord_root * wing_center_chord) := mul_pos (mul_pos ht hc) hd
  have hk : 0 < sle wing_area wing_slat_chord_ratio wing_taper_ratio wing_slat_span_ratio wing_thickness_to_chord_root wing_span fuselage_avg_diameter wing_center_chord := by
    unfold sle body_to_span_ratio
    have := mul_pos (mul_pos (div_pos (mul_pos hs ha) (show 0 < 1 + wing_taper_ratio by linarith)) hr) h8
    exact this
  refine deriv_as (slat_pow (sle_chain (btsr_cc wing_thickness_to_chord_root wing_span fuselage_avg_diameter wing_center_chord hu) wing_slat_chord_ratio wing_area wing_taper_ratio wing_slat_span_ratio) hk) (fun _ => rfl) ?_
  simp only [J_slat_mass__wing_center_chord, sle_2, body_to_span_ratio_2, u1, dsle_dbtsr, dbtsr_dcc]
  ring

/-- the declared derivative of `slat_mass` by `wing_thickness_to_chord_root` is right,
aviary/subsystems/mass/gasp_based/fixed.py:1353-2146 -/
theorem slat_wing_thickness_to_chord_root (wing_area wing_slat_chord_ratio wing_taper_ratio wing_slat_span_ratio wing_thickness_to_chord_root wing_span fuselage_avg_diameter wing_center_chord : ℝ)
    (hl : 0 < wing_taper_ratio)
    (ht : 0 < wing_thickness_to_chord_root)
    (hc : 0 < wing_center_chord)
    (hd : 0 < fuselage_avg_diameter - (wing_thickness_to_chord_root * wing_center_chord))
    (hb : 0 < wing_span)
    (hs : 0 < wing_slat_chord_ratio)
    (ha : 0 < wing_area)
    (hr : 0 < wing_slat_span_ratio)
    (h8 : 0 < 2 - ((1 - wing_taper_ratio) * ((99 / 100) + (((2 * (sqrt ((wing_thickness_to_chord_root * wing_center_chord) * (fuselage_avg_diameter - (wing_thickness_to_chord_root * wing_center_chord))))) + (2 / 5)) / wing_span)))) :
    HasDerivAt (fun y => out_slat_mass wing_area wing_slat_chord_ratio wing_taper_ratio wing_slat_span_ratio y wing_span fuselage_avg_diameter wing_center_chord)
      (J_slat_mass__wing_thickness_to_chord_root wing_area wing_slat_chord_ratio wing_taper_ratio wing_slat_span_ratio wing_thickness_to_chord_root wing_span fuselage_avg_diameter wing_center_chord) wing_thickness_to_chord_root := by
  have hu : 0 < (wing_thickness_to_chord_root * wing_center_chord) * (fuselage_avg_diameter - wing_thickness_to_chord_root * wing_center_chord) := mul_pos (mul_pos ht hc) hd
  have hk : 0 < sle wing_area wing_slat_chord_ratio wing_taper_ratio wing_slat_span_ratio wing_thickness_to_chord_root wing_span fuselage_avg_diameter wing_center_chord := by
    unfold sle body_to_span_ratio
    have := mul_pos (mul_pos (div_pos (mul_pos hs ha) (show 0 < 1 + wing_taper_ratio by linarith)) hr) h8
    exact this
  refine deriv_as (slat_pow (sle_chain (btsr_tc wing_thickness_to_chord_root wing_span fuselage_avg_diameter wing_center_chord hu) wing_slat_chord_ratio wing_area wing_taper_ratio wing_slat_span_ratio) hk) (fun _ => rfl) ?_
  simp only [J_slat_mass__wing_thickness_to_chord_root, sle_2, body_to_span_ratio_2, u1, dsle_dbtsr, dbtsr_dtcrr]
  ring

/-- the declared derivative of `wing_high_lift_mass` by `fuselage_avg_diameter` is right,
aviary/subsystems/mass/gasp_based/fixed.py:1353-2146 -/
theorem all_fuselage_avg_diameter (wing_num_flap_segments sea_level_density wing_high_lift_mass_coefficient wing_area wing_slat_chord_ratio wing_flap_chord_ratio wing_taper_ratio wing_flap_span_ratio wing_slat_span_ratio design_wing_loading wing_thickness_to_chord_root wing_span fuselage_avg_diameter wing_center_chord landing_lift_coefficient_max : ℝ)
    (hl : 0 < wing_taper_ratio)
    (ht : 0 < wing_thickness_to_chord_root)
    (hc : 0 < wing_center_chord)
    (hd : 0 < fuselage_avg_diameter - (wing_thickness_to_chord_root * wing_center_chord))
    (hb : 0 < wing_span)
    (hs : 0 < wing_slat_chord_ratio)
    (ha : 0 < wing_area)
    (hr : 0 < wing_slat_span_ratio)
    (h8 : 0 < 2 - ((1 - wing_taper_ratio) * ((99 / 100) + (((2 * (sqrt ((wing_thickness_to_chord_root * wing_center_chord) * (fuselage_avg_diameter - (wing_thickness_to_chord_root * wing_center_chord))))) + (2 / 5)) / wing_span))))
    (hq : 0 < sea_level_density)
    (hm : 0 < landing_lift_coefficient_max)
    (hg : 0 < design_wing_loading)
    (hn : 0 < wing_num_flap_segments) :
    HasDerivAt (fun y => out_wing_high_lift_mass wing_num_flap_segments sea_level_density wing_high_lift_mass_coefficient wing_area wing_slat_chord_ratio wing_flap_chord_ratio wing_taper_ratio wing_flap_span_ratio wing_slat_span_ratio design_wing_loading wing_thickness_to_chord_root wing_span y wing_center_chord landing_lift_coefficient_max)
      (J_wing_high_lift_mass__fuselage_avg_diameter wing_num_flap_segments sea_level_density wing_high_lift_mass_coefficient wing_area wing_slat_chord_ratio wing_flap_chord_ratio wing_taper_ratio wing_slat_span_ratio design_wing_loading wing_thickness_to_chord_root wing_span fuselage_avg_diameter wing_center_chord landing_lift_coefficient_max) fuselage_avg_diameter := by
  have hu : 0 < (wing_thickness_to_chord_root * wing_center_chord) * (fuselage_avg_diameter - wing_thickness_to_chord_root * wing_center_chord) := mul_pos (mul_pos ht hc) hd
  have h1 : HasDerivAt (fun y => out_flap_mass wing_num_flap_segments sea_level_density wing_high_lift_mass_coefficient wing_area wing_flap_chord_ratio wing_taper_ratio wing_flap_span_ratio design_wing_loading wing_thickness_to_chord_root wing_span y wing_center_chord landing_lift_coefficient_max) (J_flap_mass__fuselage_avg_diameter wing_num_flap_segments sea_level_density wing_high_lift_mass_coefficient wing_area wing_flap_chord_ratio wing_taper_ratio design_wing_loading wing_thickness_to_chord_root wing_span fuselage_avg_diameter wing_center_chord landing_lift_coefficient_max) fuselage_avg_diameter := by
    apply d_flap_mass__fuselage_avg_diameter <;> assumption
  have h2 : HasDerivAt (fun y => out_slat_mass wing_area wing_slat_chord_ratio wing_taper_ratio wing_slat_span_ratio wing_thickness_to_chord_root wing_span y wing_center_chord) (J_slat_mass__fuselage_avg_diameter wing_area wing_slat_chord_ratio wing_taper_ratio wing_slat_span_ratio wing_thickness_to_chord_root wing_span fuselage_avg_diameter wing_center_chord) fuselage_avg_diameter := by
    apply slat_fuselage_avg_diameter <;> assumption
  exact deriv_as (h1.add h2) (fun _ => rfl) rfl

/-- the declared derivative of `wing_high_lift_mass` by `wing_center_chord` is right,
aviary/subsystems/mass/gasp_based/fixed.py:1353-2146 -/
theorem all_wing_center_chord (wing_num_flap_segments sea_level_density wing_high_lift_mass_coefficient wing_area wing_slat_chord_ratio wing_flap_chord_ratio wing_taper_ratio wing_flap_span_ratio wing_slat_span_ratio design_wing_loading wing_thickness_to_chord_root wing_span fuselage_avg_diameter wing_center_chord landing_lift_coefficient_max : ℝ)
    (hl : 0 < wing_taper_ratio)
    (ht : 0 < wing_thickness_to_chord_root)
    (hc : 0 < wing_center_chord)
    (hd : 0 < fuselage_avg_diameter - (wing_thickness_to_chord_root * wing_center_chord))
    (hb : 0 < wing_span)
    (hs : 0 < wing_slat_chord_ratio)
    (ha : 0 < wing_area)
    (hr : 0 < wing_slat_span_ratio)
    (h8 : 0 < 2 - ((1 - wing_taper_ratio) * ((99 / 100) + (((2 * (sqrt ((wing_thickness_to_chord_root * wing_center_chord) * (fuselage_avg_diameter - (wing_thickness_to_chord_root * wing_center_chord))))) + (2 / 5)) / wing_span))))
    (hq : 0 < sea_level_density)
    (hm : 0 < landing_lift_coefficient_max)
    (hg : 0 < design_wing_loading)
    (hn : 0 < wing_num_flap_segments) :
    HasDerivAt (fun y => out_wing_high_lift_mass wing_num_flap_segments sea_level_density wing_high_lift_mass_coefficient wing_area wing_slat_chord_ratio wing_flap_chord_ratio wing_taper_ratio wing_flap_span_ratio wing_slat_span_ratio design_wing_loading wing_thickness_to_chord_root wing_span fuselage_avg_diameter y landing_lift_coefficient_max)
      (J_wing_high_lift_mass__wing_center_chord wing_num_flap_segments sea_level_density wing_high_lift_mass_coefficient wing_area wing_slat_chord_ratio wing_flap_chord_ratio wing_taper_ratio wing_slat_span_ratio design_wing_loading wing_thickness_to_chord_root wing_span fuselage_avg_diameter wing_center_chord landing_lift_coefficient_max) wing_center_chord := by
  have hu : 0 < (wing_thickness_to_chord_root * wing_center_chord) * (fuselage_avg_diameter - wing_thickness_to_chord_root * wing_center_chord) := mul_pos (mul_pos ht hc) hd
  have h1 : HasDerivAt (fun y => out_flap_mass wing_num_flap_segments sea_level_density wing_high_lift_mass_coefficient wing_area wing_flap_chord_ratio wing_taper_ratio wing_flap_span_ratio design_wing_loading wing_thickness_to_chord_root wing_span fuselage_avg_diameter y landing_lift_coefficient_max) (J_flap_mass__wing_center_chord wing_num_flap_segments sea_level_density wing_high_lift_mass_coefficient wing_area wing_flap_chord_ratio wing_taper_ratio design_wing_loading wing_thickness_to_chord_root wing_span fuselage_avg_diameter wing_center_chord landing_lift_coefficient_max) wing_center_chord := by
    apply d_flap_mass__wing_center_chord <;> assumption
  have h2 : HasDerivAt (fun y => out_slat_mass wing_area wing_slat_chord_ratio wing_taper_ratio wing_slat_span_ratio wing_thickness_to_chord_root wing_span fuselage_avg_diameter y) (J_slat_mass__wing_center_chord wing_area wing_slat_chord_ratio wing_taper_ratio wing_slat_span_ratio wing_thickness_to_chord_root wing_span fuselage_avg_diameter wing_center_chord) wing_center_chord := by
    apply slat_wing_center_chord <;> assumption
  exact deriv_as (h1.add h2) (fun _ => rfl) rfl

/-- the declared derivative of `wing_high_lift_mass` by `wing_thickness_to_chord_root` is right,
aviary/subsystems/mass/gasp_based/fixed.py:1353-2146 -/
theorem all_wing_thickness_to_chord_root (wing_num_flap_segments sea_level_density wing_high_lift_mass_coefficient wing_area wing_slat_chord_ratio wing_flap_chord_ratio wing_taper_ratio wing_flap_span_ratio wing_slat_span_ratio design_wing_loading wing_thickness_to_chord_root wing_span fuselage_avg_diameter wing_center_chord landing_lift_coefficient_max : ℝ)
    (hl : 0 < wing_taper_ratio)
    (ht : 0 < wing_thickness_to_chord_root)
    (hc : 0 < wing_center_chord)
    (hd : 0 < fuselage_avg_diameter - (wing_thickness_to_chord_root * wing_center_chord))
    (hb : 0 < wing_span)
    (hs : 0 < wing_slat_chord_ratio)
    (ha : 0 < wing_area)
    (hr : 0 < wing_slat_span_ratio)
    (h8 : 0 < 2 - ((1 - wing_taper_ratio) * ((99 / 100) + (((2 * (sqrt ((wing_thickness_to_chord_root * wing_center_chord) * (fuselage_avg_diameter - (wing_thickness_to_chord_root * wing_center_chord))))) + (2 / 5)) / wing_span))))
    (hq : 0 < sea_level_density)
    (hm : 0 < landing_lift_coefficient_max)
    (hg : 0 < design_wing_loading)
    (hn : 0 < wing_num_flap_segments) :
    HasDerivAt (fun y => out_wing_high_lift_mass wing_num_flap_segments sea_level_density wing_high_lift_mass_coefficient wing_area wing_slat_chord_ratio wing_flap_chord_ratio wing_taper_ratio wing_flap_span_ratio wing_slat_span_ratio design_wing_loading y wing_span fuselage_avg_diameter wing_center_chord landing_lift_coefficient_max)
      (J_wing_high_lift_mass__wing_thickness_to_chord_root wing_num_flap_segments sea_level_density wing_high_lift_mass_coefficient wing_area wing_slat_chord_ratio wing_flap_chord_ratio wing_taper_ratio wing_slat_span_ratio design_wing_loading wing_thickness_to_chord_root wing_span fuselage_avg_diameter wing_center_chord landing_lift_coefficient_max) wing_thickness_to_chord_root := by
  have hu : 0 < (wing_thickness_to_chord_root * wing_center_chord) * (fuselage_avg_diameter - wing_thickness_to_chord_root * wing_center_chord) := mul_pos (mul_pos ht hc) hd
  have h1 : HasDerivAt (fun y => out_flap_mass wing_num_flap_segments sea_level_density wing_high_lift_mass_coefficient wing_area wing_flap_chord_ratio wing_taper_ratio wing_flap_span_ratio design_wing_loading y wing_span fuselage_avg_diameter wing_center_chord landing_lift_coefficient_max) (J_flap_mass__wing_thickness_to_chord_root wing_num_flap_segments sea_level_density wing_high_lift_mass_coefficient wing_area wing_flap_chord_ratio wing_taper_ratio design_wing_loading wing_thickness_to_chord_root wing_span fuselage_avg_diameter wing_center_chord landing_lift_coefficient_max) wing_thickness_to_chord_root := by
    apply d_flap_mass__wing_thickness_to_chord_root <;> assumption
  have h2 : HasDerivAt (fun y => out_slat_mass wing_area wing_slat_chord_ratio wing_taper_ratio wing_slat_span_ratio y wing_span fuselage_avg_diameter wing_center_chord) (J_slat_mass__wing_thickness_to_chord_root wing_area wing_slat_chord_ratio wing_taper_ratio wing_slat_span_ratio wing_thickness_to_chord_root wing_span fuselage_avg_diameter wing_center_chord) wing_thickness_to_chord_root := by
    apply slat_wing_thickness_to_chord_root <;> assumption
  exact deriv_as (h1.add h2) (fun _ => rfl) rfl

end plain

namespace split
open Verif.Comp.MassGaspBasedFixed.HighLiftMass_split

/-- the declared derivative of `slat_mass` by `fuselage_avg_diameter` is right,
aviary/subsystems/mass/gasp_based/fixed.py:1353-2146 -/
theorem slat_fuselage_avg_diameter (wing_area wing_slat_chord_ratio wing_taper_ratio wing_slat_span_ratio wing_thickness_to_chord_root wing_span fuselage_avg_diameter wing_center_chord : ℝ)
    (hl : 0 < wing_taper_ratio)
    (ht : 0 < wing_thickness_to_chord_root)
    (hc : 0 < wing_center_chord)
    (hd : 0 < fuselage_avg_diameter - (wing_thickness_to_chord_root * wing_center_chord))
    (hb : 0 < wing_span)
    (hs : 0 < wing_slat_chord_ratio)
    (ha : 0 < wing_area)
    (hr : 0 < wing_slat_span_ratio)
    (h8 : 0 < 2 - ((1 - wing_taper_ratio) * ((99 / 100) + (((2 * (sqrt ((wing_thickness_to_chord_root * wing_center_chord) * (fuselage_avg_diameter - (wing_thickness_to_chord_root * wing_center_chord))))) + (2 / 5)) / wing_span)))) :
    HasDerivAt (fun y => out_slat_mass wing_area wing_slat_chord_ratio wing_taper_ratio wing_slat_span_ratio wing_thickness_to_chord_root wing_span y wing_center_chord)
      (J_slat_mass__fuselage_avg_diameter wing_area wing_slat_chord_ratio wing_taper_ratio wing_slat_span_ratio wing_thickness_to_chord_root wing_span fuselage_avg_diameter wing_center_chord) fuselage_avg_diameter := by
  have hu : 0 < (wing_thickness_to_chord_root * wing_center_chord) * (fuselage_avg_diameter - wing_thickness_to_chord_root * wing_center_chord) := mul_pos (mul_pos ht hc) hd
  have hk : 0 < sle wing_area wing_slat_chord_ratio wing_taper_ratio wing_slat_span_ratio wing_thickness_to_chord_root wing_span fuselage_avg_diameter wing_center_chord := by
    unfold sle body_to_span_ratio
    have := mul_pos (mul_pos (div_pos (mul_pos hs ha) (show 0 < 1 + wing_taper_ratio by linarith)) hr) h8
    exact this
  refine deriv_as (slat_pow (sle_chain (btsr_cw wing_thickness_to_chord_root wing_span fuselage_avg_diameter wing_center_chord hu) wing_slat_chord_ratio wing_area wing_taper_ratio wing_slat_span_ratio) hk) (fun _ => rfl) ?_
  simp only [J_slat_mass__fuselage_avg_diameter, sle_2, body_to_span_ratio_2, u1, dsle_dbtsr, dbtsr_dcw]
  ring

/-- the declared derivative of `slat_mass` by `wing_area` is right,
aviary/subsystems/mass/gasp_based/fixed.py:1353-2146 -/
theorem slat_wing_area (wing_area wing_slat_chord_ratio wing_taper_ratio wing_slat_span_ratio wing_thickness_to_chord_root wing_span fuselage_avg_diameter wing_center_chord : ℝ)
    (hl : 0 < wing_taper_ratio)
    (ht : 0 < wing_thickness_to_chord_root)
    (hc : 0 < wing_center_chord)
    (hd : 0 < fuselage_avg_diameter - (wing_thickness_to_chord_root * wing_center_chord))
    (hb : 0 < wing_span)
    (hs : 0 < wing_slat_chord_ratio)
    (ha : 0 < wing_area)
    (hr : 0 < wing_slat_span_ratio)
    (h8 : 0 < 2 - ((1 - wing_taper_ratio) * ((99 / 100) + (((2 * (sqrt ((wing_thickness_to_chord_root * wing_center_chord) * (fuselage_avg_diameter - (wing_thickness_to_chord_root * wing_center_chord))))) + (2 / 5)) / wing_span)))) :
    HasDerivAt (fun y => out_slat_mass y wing_slat_chord_ratio wing_taper_ratio wing_slat_span_ratio wing_thickness_to_chord_root wing_span fuselage_avg_diameter wing_center_chord)
      (J_slat_mass__wing_area wing_area wing_slat_chord_ratio wing_taper_ratio wing_slat_span_ratio wing_thickness_to_chord_root wing_span fuselage_avg_diameter wing_center_chord) wing_area := by
  have hk : 0 < sle wing_area wing_slat_chord_ratio wing_taper_ratio wing_slat_span_ratio wing_thickness_to_chord_root wing_span fuselage_avg_diameter wing_center_chord := by
    unfold sle body_to_span_ratio
    have := mul_pos (mul_pos (div_pos (mul_pos hs ha) (show 0 < 1 + wing_taper_ratio by linarith)) hr) h8
    exact this
  have h : HasDerivAt (fun y => sle y wing_slat_chord_ratio wing_taper_ratio wing_slat_span_ratio wing_thickness_to_chord_root wing_span fuselage_avg_diameter wing_center_chord) (dsle_dwa wing_slat_chord_ratio wing_taper_ratio wing_slat_span_ratio wing_thickness_to_chord_root wing_span fuselage_avg_diameter wing_center_chord) wing_area := by
    refine affine_slope _ (fun y => ?_) _
    simp only [sle, dsle_dwa, body_to_span_ratio_2, u1, body_to_span_ratio]
    ring
  exact deriv_as (slat_pow h hk) (fun _ => rfl) rfl

/-- the declared derivative of `slat_mass` by `wing_center_chord` is right,
aviary/subsystems/mass/gasp_based/fixed.py:1353-2146 -/
theorem slat_wing_center_chord (wing_area wing_slat_chord_ratio wing_taper_ratio wing_slat_span_ratio wing_thickness_to_chord_root wing_span fuselage_avg_diameter wing_center_chord : ℝ)
    (hl : 0 < wing_taper_ratio)
    (ht : 0 < wing_thickness_to_chord_root)
    (hc : 0 < wing_center_chord)
    (hd : 0 < fuselage_avg_diameter - (wing_thickness_to_chord_root * wing_center_chord))
    (hb : 0 < wing_span)
    (hs : 0 < wing_slat_chord_ratio)
    (ha : 0 < wing_area)
    (hr : 0 < wing_slat_span_ratio)
    (h8 : 0 < 2 - ((1 - wing_taper_ratio) * ((99 / 100) + (((2 * (sqrt ((wing_thickness_to_chord_root * wing_center_chord) * (fuselage_avg_diameter - (wing_thickness_to_chord_root * wing_center_chord))))) + (2 / 5)) / wing_span)))) :
    HasDerivAt (fun y => out_slat_mass wing_area wing_slat_chord_ratio wing_taper_ratio wing_slat_span_ratio wing_thickness_to_chord_root wing_span fuselage_avg_diameter y)
      (J_slat_mass__wing_center_chord wing_area wing_slat_chord_ratio wing_taper_ratio wing_slat_span_ratio wing_thickness_to_chord_root wing_span fuselage_avg_diameter wing_center_chord) wing_center_chord := by
  have hu : 0 < (wing_thickness_to_chord_root * wing_center_chord) * (fuselage_avg_diameter - wing_thickness_to_chord_root * wing_center_chord) := mul_pos (mul_pos ht hc) hd
  have hk : 0 < sle wing_area wing_slat_chord_ratio wing_taper_ratio wing_slat_span_ratio wing_thickness_to_chord_root wing_span fuselage_avg_diameter wing_center_chord := by
    unfold sle body_to_span_ratio
    have := mul_pos (mul_pos (div_pos (mul_pos hs ha) (show 0 < 1 + wing_taper_ratio by linarith)) hr) h8
    exact this
  refine deriv_as (slat_pow (sle_chain (btsr_cc wing_thickness_to_chord_root wing_span fuselage_avg_diameter wing_center_chord hu) wing_slat_chord_ratio wing_area wing_taper_ratio wing_slat_span_ratio) hk) (fun _ => rfl) ?_
  simp only [J_slat_mass__wing_center_chord, sle_2, body_to_span_ratio_2, u1, dsle_dbtsr, dbtsr_dcc]
  ring

/-- the declared derivative of `slat_mass` by `wing_slat_chord_ratio` is right,
aviary/subsystems/mass/gasp_based/fixed.py:1353-2146 -/
theorem slat_wing_slat_chord_ratio (wing_area wing_slat_chord_ratio wing_taper_ratio wing_slat_span_ratio wing_thickness_to_chord_root wing_span fuselage_avg_diameter wing_center_chord : ℝ)
    (hl : 0 < wing_taper_ratio)
    (ht : 0 < wing_thickness_to_chord_root)
    (hc : 0 < wing_center_chord)
    (hd : 0 < fuselage_avg_diameter - (wing_thickness_to_chord_root * wing_center_chord))
    (hb : 0 < wing_span)
    (hs : 0 < wing_slat_chord_ratio)
    (ha : 0 < wing_area)
    (hr : 0 < wing_slat_span_ratio)
    (h8 : 0 < 2 - ((1 - wing_taper_ratio) * ((99 / 100) + (((2 * (sqrt ((wing_thickness_to_chord_root * wing_center_chord) * (fuselage_avg_diameter - (wing_thickness_to_chord_root * wing_center_chord))))) + (2 / 5)) / wing_span)))) :
    HasDerivAt (fun y => out_slat_mass wing_area y wing_taper_ratio wing_slat_span_ratio wing_thickness_to_chord_root wing_span fuselage_avg_diameter wing_center_chord)
      (J_slat_mass__wing_slat_chord_ratio wing_area wing_slat_chord_ratio wing_taper_ratio wing_slat_span_ratio wing_thickness_to_chord_root wing_span fuselage_avg_diameter wing_center_chord) wing_slat_chord_ratio := by
  have hk : 0 < sle wing_area wing_slat_chord_ratio wing_taper_ratio wing_slat_span_ratio wing_thickness_to_chord_root wing_span fuselage_avg_diameter wing_center_chord := by
    unfold sle body_to_span_ratio
    have := mul_pos (mul_pos (div_pos (mul_pos hs ha) (show 0 < 1 + wing_taper_ratio by linarith)) hr) h8
    exact this
  have h : HasDerivAt (fun y => sle wing_area y wing_taper_ratio wing_slat_span_ratio wing_thickness_to_chord_root wing_span fuselage_avg_diameter wing_center_chord) (dsle_dscr wing_area wing_taper_ratio wing_slat_span_ratio wing_thickness_to_chord_root wing_span fuselage_avg_diameter wing_center_chord) wing_slat_chord_ratio := by
    refine affine_slope _ (fun y => ?_) _
    simp only [sle, dsle_dscr, body_to_span_ratio_2, u1, body_to_span_ratio]
    ring
  exact deriv_as (slat_pow h hk) (fun _ => rfl) rfl

/-- the declared derivative of `slat_mass` by `wing_slat_span_ratio` is right,
aviary/subsystems/mass/gasp_based/fixed.py:1353-2146 -/
theorem slat_wing_slat_span_ratio (wing_area wing_slat_chord_ratio wing_taper_ratio wing_slat_span_ratio wing_thickness_to_chord_root wing_span fuselage_avg_diameter wing_center_chord : ℝ)
    (hl : 0 < wing_taper_ratio)
    (ht : 0 < wing_thickness_to_chord_root)
    (hc : 0 < wing_center_chord)
    (hd : 0 < fuselage_avg_diameter - (wing_thickness_to_chord_root * wing_center_chord))
    (hb : 0 < wing_span)
    (hs : 0 < wing_slat_chord_ratio)
    (ha : 0 < wing_area)
    (hr : 0 < wing_slat_span_ratio)
    (h8 : 0 < 2 - ((1 - wing_taper_ratio) * ((99 / 100) + (((2 * (sqrt ((wing_thickness_to_chord_root * wing_center_chord) * (fuselage_avg_diameter - (wing_thickness_to_chord_root * wing_center_chord))))) + (2 / 5)) / wing_span)))) :
    HasDerivAt (fun y => out_slat_mass wing_area wing_slat_chord_ratio wing_taper_ratio y wing_thickness_to_chord_root wing_span fuselage_avg_diameter wing_center_chord)
      (J_slat_mass__wing_slat_span_ratio wing_area wing_slat_chord_ratio wing_taper_ratio wing_slat_span_ratio wing_thickness_to_chord_root wing_span fuselage_avg_diameter wing_center_chord) wing_slat_span_ratio := by
  have hk : 0 < sle wing_area wing_slat_chord_ratio wing_taper_ratio wing_slat_span_ratio wing_thickness_to_chord_root wing_span fuselage_avg_diameter wing_center_chord := by
    unfold sle body_to_span_ratio
    have := mul_pos (mul_pos (div_pos (mul_pos hs ha) (show 0 < 1 + wing_taper_ratio by linarith)) hr) h8
    exact this
  have h : HasDerivAt (fun y => sle wing_area wing_slat_chord_ratio wing_taper_ratio y wing_thickness_to_chord_root wing_span fuselage_avg_diameter wing_center_chord) (dsle_dssr wing_area wing_slat_chord_ratio wing_taper_ratio wing_thickness_to_chord_root wing_span fuselage_avg_diameter wing_center_chord) wing_slat_span_ratio := by
    refine affine_slope _ (fun y => ?_) _
    simp only [sle, dsle_dssr, body_to_span_ratio_2, u1, body_to_span_ratio]
    ring
  exact deriv_as (slat_pow h hk) (fun _ => rfl) rfl

/-- the declared derivative of `slat_mass` by `wing_span` is right,
aviary/subsystems/mass/gasp_based/fixed.py:1353-2146 -/
theorem slat_wing_span (wing_area wing_slat_chord_ratio wing_taper_ratio wing_slat_span_ratio wing_thickness_to_chord_root wing_span fuselage_avg_diameter wing_center_chord : ℝ)
    (hl : 0 < wing_taper_ratio)
    (ht : 0 < wing_thickness_to_chord_root)
    (hc : 0 < wing_center_chord)
    (hd : 0 < fuselage_avg_diameter - (wing_thickness_to_chord_root * wing_center_chord))
    (hb : 0 < wing_span)
    (hs : 0 < wing_slat_chord_ratio)
    (ha : 0 < wing_area)
    (hr : 0 < wing_slat_span_ratio)
    (h8 : 0 < 2 - ((1 - wing_taper_ratio) * ((99 / 100) + (((2 * (sqrt ((wing_thickness_to_chord_root * wing_center_chord) * (fuselage_avg_diameter - (wing_thickness_to_chord_root * wing_center_chord))))) + (2 / 5)) / wing_span)))) :
    HasDerivAt (fun y => out_slat_mass wing_area wing_slat_chord_ratio wing_taper_ratio wing_slat_span_ratio wing_thickness_to_chord_root y fuselage_avg_diameter wing_center_chord)
      (J_slat_mass__wing_span wing_area wing_slat_chord_ratio wing_taper_ratio wing_slat_span_ratio wing_thickness_to_chord_root wing_span fuselage_avg_diameter wing_center_chord) wing_span := by
  have hk : 0 < sle wing_area wing_slat_chord_ratio wing_taper_ratio wing_slat_span_ratio wing_thickness_to_chord_root wing_span fuselage_avg_diameter wing_center_chord := by
    unfold sle body_to_span_ratio
    have := mul_pos (mul_pos (div_pos (mul_pos hs ha) (show 0 < 1 + wing_taper_ratio by linarith)) hr) h8
    exact this
  refine deriv_as (slat_pow (sle_chain (btsr_span wing_thickness_to_chord_root wing_span fuselage_avg_diameter wing_center_chord hb.ne') wing_slat_chord_ratio wing_area wing_taper_ratio wing_slat_span_ratio) hk) (fun _ => rfl) ?_
  simp only [J_slat_mass__wing_span, sle_2, body_to_span_ratio_2, u1, dsle_dbtsr, dbtsr_dwingspan]
  ring

/-- the declared derivative of `slat_mass` by `wing_taper_ratio` is right,
aviary/subsystems/mass/gasp_based/fixed.py:1353-2146 -/
theorem slat_wing_taper_ratio (wing_area wing_slat_chord_ratio wing_taper_ratio wing_slat_span_ratio wing_thickness_to_chord_root wing_span fuselage_avg_diameter wing_center_chord : ℝ)
    (hl : 0 < wing_taper_ratio)
    (ht : 0 < wing_thickness_to_chord_root)
    (hc : 0 < wing_center_chord)
    (hd : 0 < fuselage_avg_diameter - (wing_thickness_to_chord_root * wing_center_chord))
    (hb : 0 < wing_span)
    (hs : 0 < wing_slat_chord_ratio)
    (ha : 0 < wing_area)
    (hr : 0 < wing_slat_span_ratio)
    (h8 : 0 < 2 - ((1 - wing_taper_ratio) * ((99 / 100) + (((2 * (sqrt ((wing_thickness_to_chord_root * wing_center_chord) * (fuselage_avg_diameter - (wing_thickness_to_chord_root * wing_center_chord))))) + (2 / 5)) / wing_span)))) :
    HasDerivAt (fun y => out_slat_mass wing_area wing_slat_chord_ratio y wing_slat_span_ratio wing_thickness_to_chord_root wing_span fuselage_avg_diameter wing_center_chord)
      (J_slat_mass__wing_taper_ratio wing_area wing_slat_chord_ratio wing_taper_ratio wing_slat_span_ratio wing_thickness_to_chord_root wing_span fuselage_avg_diameter wing_center_chord) wing_taper_ratio := by
  have hk : 0 < sle wing_area wing_slat_chord_ratio wing_taper_ratio wing_slat_span_ratio wing_thickness_to_chord_root wing_span fuselage_avg_diameter wing_center_chord := by
    unfold sle body_to_span_ratio
    have := mul_pos (mul_pos (div_pos (mul_pos hs ha) (show 0 < 1 + wing_taper_ratio by linarith)) hr) h8
    exact this
  have h : HasDerivAt (fun y => sle wing_area wing_slat_chord_ratio y wing_slat_span_ratio wing_thickness_to_chord_root wing_span fuselage_avg_diameter wing_center_chord) (dsle_dtr wing_area wing_slat_chord_ratio wing_taper_ratio wing_slat_span_ratio wing_thickness_to_chord_root wing_span fuselage_avg_diameter wing_center_chord) wing_taper_ratio := by
    have h0 : HasDerivAt (fun y : ℝ => 1 + y) 1 wing_taper_ratio := by simpa using (hasDerivAt_id wing_taper_ratio).const_add 1
    have h1 : HasDerivAt (fun y : ℝ => 1 - y) (-1) wing_taper_ratio := by simpa using (hasDerivAt_id wing_taper_ratio).const_sub 1
    refine deriv_as ((((hasDerivAt_const wing_taper_ratio (wing_slat_chord_ratio * wing_area)).div h0
      (by linarith)).mul_const wing_slat_span_ratio).mul ((h1.mul_const ((99 / 100) +
      body_to_span_ratio wing_thickness_to_chord_root wing_span fuselage_avg_diameter wing_center_chord)).const_sub 2)) (fun _ => rfl) ?_
    simp only [dsle_dtr, body_to_span_ratio_2, u1, body_to_span_ratio, Pi.div_apply]
    have : 1 + wing_taper_ratio ≠ 0 := by linarith
    generalize √(wing_thickness_to_chord_root * wing_center_chord * (fuselage_avg_diameter - wing_thickness_to_chord_root * wing_center_chord)) = s at *
    have := hb.ne'
    field_simp
    ring
  exact deriv_as (slat_pow h hk) (fun _ => rfl) rfl

/-- the declared derivative of `slat_mass` by `wing_thickness_to_chord_root` is right,
aviary/subsystems/mass/gasp_based/fixed.py:1353-2146 -/
theorem slat_wing_thickness_to_chord_root (wing_area wing_slat_chord_ratio wing_taper_ratio wing_slat_span_ratio wing_thickness_to_chord_root wing_span fuselage_avg_diameter wing_center_chord : ℝ)
    (hl : 0 < wing_taper_ratio)
    (ht : 0 < wing_thickness_to_chord_root)
    (hc : 0 < wing_center_chord)
    (hd : 0 < fuselage_avg_diameter - (wing_thickness_to_chord_root * wing_center_chord))
    (hb : 0 < wing_span)
    (hs : 0 < wing_slat_chord_ratio)
    (ha : 0 < wing_area)
    (hr : 0 < wing_slat_span_ratio)
    (h8 : 0 < 2 - ((1 - wing_taper_ratio) * ((99 / 100) + (((2 * (sqrt ((wing_thickness_to_chord_root * wing_center_chord) * (fuselage_avg_diameter - (wing_thickness_to_chord_root * wing_center_chord))))) + (2 / 5)) / wing_span)))) :
    HasDerivAt (fun y => out_slat_mass wing_area wing_slat_chord_ratio wing_taper_ratio wing_slat_span_ratio y wing_span fuselage_avg_diameter wing_center_chord)
      (J_slat_mass__wing_thickness_to_chord_root wing_area wing_slat_chord_ratio wing_taper_ratio wing_slat_span_ratio wing_thickness_to_chord_root wing_span fuselage_avg_diameter wing_center_chord) wing_thickness_to_chord_root := by
  have hu : 0 < (wing_thickness_to_chord_root * wing_center_chord) * (fuselage_avg_diameter - wing_thickness_to_chord_root * wing_center_chord) := mul_pos (mul_pos ht hc) hd
  have hk : 0 < sle wing_area wing_slat_chord_ratio wing_taper_ratio wing_slat_span_ratio wing_thickness_to_chord_root wing_span fuselage_avg_diameter wing_center_chord := by
    unfold sle body_to_span_ratio
    have := mul_pos (mul_pos (div_pos (mul_pos hs ha) (show 0 < 1 + wing_taper_ratio by linarith)) hr) h8
    exact this
  refine deriv_as (slat_pow (sle_chain (btsr_tc wing_thickness_to_chord_root wing_span fuselage_avg_diameter wing_center_chord hu) wing_slat_chord_ratio wing_area wing_taper_ratio wing_slat_span_ratio) hk) (fun _ => rfl) ?_
  simp only [J_slat_mass__wing_thickness_to_chord_root, sle_2, body_to_span_ratio_2, u1, dsle_dbtsr, dbtsr_dtcrr]
  ring

/-- the declared derivative of `flap_mass` by `design_wing_loading` is right,
aviary/subsystems/mass/gasp_based/fixed.py:1353-2146 -/
theorem flap_design_wing_loading (sea_level_density wing_high_lift_mass_coefficient wing_area wing_flap_chord_ratio wing_taper_ratio wing_flap_span_ratio design_wing_loading wing_thickness_to_chord_root wing_span fuselage_avg_diameter wing_center_chord landing_lift_coefficient_max : ℝ)
    (hl : 0 < wing_taper_ratio)
    (ht : 0 < wing_thickness_to_chord_root)
    (hc : 0 < wing_center_chord)
    (hd : 0 < fuselage_avg_diameter - (wing_thickness_to_chord_root * wing_center_chord))
    (hb : 0 < wing_span)
    (hq : 0 < sea_level_density)
    (hm : 0 < landing_lift_coefficient_max)
    (hg : 0 < design_wing_loading)
    (hv : vflap sea_level_density design_wing_loading landing_lift_coefficient_max ≠ 160) :
    HasDerivAt (fun y => out_flap_mass sea_level_density wing_high_lift_mass_coefficient wing_area wing_flap_chord_ratio wing_taper_ratio wing_flap_span_ratio y wing_thickness_to_chord_root wing_span fuselage_avg_diameter wing_center_chord landing_lift_coefficient_max)
      (J_flap_mass__design_wing_loading sea_level_density wing_high_lift_mass_coefficient wing_area wing_flap_chord_ratio wing_taper_ratio wing_flap_span_ratio design_wing_loading wing_thickness_to_chord_root wing_span fuselage_avg_diameter wing_center_chord landing_lift_coefficient_max) design_wing_loading := by
  have hz : 0 < 2 * design_wing_loading / (sea_level_density * landing_lift_coefficient_max) := by positivity
  have hV : HasDerivAt (fun y => vflap sea_level_density y landing_lift_coefficient_max) (dvflap_dwl sea_level_density design_wing_loading landing_lift_coefficient_max) design_wing_loading := by
    have h0 : HasDerivAt (fun y => 2 * y / (sea_level_density * landing_lift_coefficient_max)) (2 / (sea_level_density * landing_lift_coefficient_max)) design_wing_loading := by
      refine deriv_as (((hasDerivAt_id design_wing_loading).const_mul 2).div_const (sea_level_density * landing_lift_coefficient_max)) (fun _ => rfl) ?_
      simp
    refine deriv_as ((((h0.sqrt hz.ne').const_mul (5921 / 10000))).const_mul (9 / 5)) (fun _ => rfl) ?_
    have hs := (sqrt_pos.mpr hz).ne'
    simp only [dvflap_dwl, u2]
    generalize √(2 * design_wing_loading / (sea_level_density * landing_lift_coefficient_max)) = s at *
    field_simp
    norm_num
  have hV0 : 0 < vflap sea_level_density design_wing_loading landing_lift_coefficient_max := by
    unfold vflap vstall
    have := sqrt_pos.mpr hz
    positivity
  rcases lt_or_gt_of_ne hv with hlt | hgt
  · have ev := hV.continuousAt.eventually_lt_const hlt
    have := (hV.rpow_const (p := (2733 / 10000 : ℝ)) (Or.inl hV0.ne')).const_mul
      ((wing_high_lift_mass_coefficient * sflap wing_area wing_flap_chord_ratio wing_taper_ratio wing_flap_span_ratio wing_thickness_to_chord_root wing_span fuselage_avg_diameter wing_center_chord) * (369 / 1000))
    refine HasDerivAt.congr_of_eventuallyEq (f₁ := fun y => out_flap_mass sea_level_density wing_high_lift_mass_coefficient wing_area wing_flap_chord_ratio wing_taper_ratio wing_flap_span_ratio y wing_thickness_to_chord_root wing_span fuselage_avg_diameter wing_center_chord landing_lift_coefficient_max)
      (deriv_as this (fun _ => rfl) ?_) (ev.mono fun y hy => ?_)
    · have h2 : ¬ 160 < vflap_2 sea_level_density design_wing_loading landing_lift_coefficient_max := not_lt.mpr hlt.le
      unfold J_flap_mass__design_wing_loading
      rw [if_neg h2, show (2733 / 10000 : ℝ) - 1 = -(7267 / 10000) by norm_num]
      show _ = (wing_high_lift_mass_coefficient * sflap wing_area wing_flap_chord_ratio wing_taper_ratio wing_flap_span_ratio wing_thickness_to_chord_root wing_span fuselage_avg_diameter wing_center_chord) * (369 / 1000) * _
      ring
    · exact if_neg (not_lt.mpr (le_of_lt hy))
  · have ev := hV.continuousAt.eventually_const_lt hgt
    have := ((hV.rpow_const (p := (439 / 200 : ℝ)) (Or.inl hV0.ne')).const_mul
      (wing_high_lift_mass_coefficient * sflap wing_area wing_flap_chord_ratio wing_taper_ratio wing_flap_span_ratio wing_thickness_to_chord_root wing_span fuselage_avg_diameter wing_center_chord)).div_const 45180
    refine HasDerivAt.congr_of_eventuallyEq (f₁ := fun y => out_flap_mass sea_level_density wing_high_lift_mass_coefficient wing_area wing_flap_chord_ratio wing_taper_ratio wing_flap_span_ratio y wing_thickness_to_chord_root wing_span fuselage_avg_diameter wing_center_chord landing_lift_coefficient_max)
      (deriv_as this (fun _ => rfl) ?_) (ev.mono fun y hy => ?_)
    · have h2 : 160 < vflap_2 sea_level_density design_wing_loading landing_lift_coefficient_max := hgt
      unfold J_flap_mass__design_wing_loading
      rw [if_pos h2, show (439 / 200 : ℝ) - 1 = 239 / 200 by norm_num]
      show (wing_high_lift_mass_coefficient * sflap wing_area wing_flap_chord_ratio wing_taper_ratio wing_flap_span_ratio wing_thickness_to_chord_root wing_span fuselage_avg_diameter wing_center_chord) * _ / _ = _
      ring
    · exact if_pos hy

/-- the declared derivative of `flap_mass` by `landing_lift_coefficient_max` is right,
aviary/subsystems/mass/gasp_based/fixed.py:1353-2146 -/
theorem flap_landing_lift_coefficient_max (sea_level_density wing_high_lift_mass_coefficient wing_area wing_flap_chord_ratio wing_taper_ratio wing_flap_span_ratio design_wing_loading wing_thickness_to_chord_root wing_span fuselage_avg_diameter wing_center_chord landing_lift_coefficient_max : ℝ)
    (hl : 0 < wing_taper_ratio)
    (ht : 0 < wing_thickness_to_chord_root)
    (hc : 0 < wing_center_chord)
    (hd : 0 < fuselage_avg_diameter - (wing_thickness_to_chord_root * wing_center_chord))
    (hb : 0 < wing_span)
    (hq : 0 < sea_level_density)
    (hm : 0 < landing_lift_coefficient_max)
    (hg : 0 < design_wing_loading)
    (hv : vflap sea_level_density design_wing_loading landing_lift_coefficient_max ≠ 160) :
    HasDerivAt (fun y => out_flap_mass sea_level_density wing_high_lift_mass_coefficient wing_area wing_flap_chord_ratio wing_taper_ratio wing_flap_span_ratio design_wing_loading wing_thickness_to_chord_root wing_span fuselage_avg_diameter wing_center_chord y)
      (J_flap_mass__landing_lift_coefficient_max sea_level_density wing_high_lift_mass_coefficient wing_area wing_flap_chord_ratio wing_taper_ratio wing_flap_span_ratio design_wing_loading wing_thickness_to_chord_root wing_span fuselage_avg_diameter wing_center_chord landing_lift_coefficient_max) landing_lift_coefficient_max := by
  have hz : 0 < 2 * design_wing_loading / (sea_level_density * landing_lift_coefficient_max) := by positivity
  have hV : HasDerivAt (fun y => vflap sea_level_density design_wing_loading y) (dvflap_dcmfl sea_level_density design_wing_loading landing_lift_coefficient_max) landing_lift_coefficient_max := by
    have h0 : HasDerivAt (fun y => 2 * design_wing_loading / (sea_level_density * y)) (-(2 * design_wing_loading) / (sea_level_density * landing_lift_coefficient_max ^ 2)) landing_lift_coefficient_max := by
      refine deriv_as ((hasDerivAt_const landing_lift_coefficient_max (2 * design_wing_loading)).div ((hasDerivAt_id landing_lift_coefficient_max).const_mul sea_level_density) (mul_pos hq hm).ne') (fun _ => rfl) ?_
      simp only [id]
      field_simp
      ring
    refine deriv_as ((((h0.sqrt hz.ne').const_mul (5921 / 10000))).const_mul (9 / 5)) (fun _ => rfl) ?_
    have hs := (sqrt_pos.mpr hz).ne'
    simp only [dvflap_dcmfl, u2]
    generalize √(2 * design_wing_loading / (sea_level_density * landing_lift_coefficient_max)) = s at *
    field_simp
    norm_num
  have hV0 : 0 < vflap sea_level_density design_wing_loading landing_lift_coefficient_max := by
    unfold vflap vstall
    have := sqrt_pos.mpr hz
    positivity
  rcases lt_or_gt_of_ne hv with hlt | hgt
  · have ev := hV.continuousAt.eventually_lt_const hlt
    have := (hV.rpow_const (p := (2733 / 10000 : ℝ)) (Or.inl hV0.ne')).const_mul
      ((wing_high_lift_mass_coefficient * sflap wing_area wing_flap_chord_ratio wing_taper_ratio wing_flap_span_ratio wing_thickness_to_chord_root wing_span fuselage_avg_diameter wing_center_chord) * (369 / 1000))
    refine HasDerivAt.congr_of_eventuallyEq (f₁ := fun y => out_flap_mass sea_level_density wing_high_lift_mass_coefficient wing_area wing_flap_chord_ratio wing_taper_ratio wing_flap_span_ratio design_wing_loading wing_thickness_to_chord_root wing_span fuselage_avg_diameter wing_center_chord y)
      (deriv_as this (fun _ => rfl) ?_) (ev.mono fun y hy => ?_)
    · have h2 : ¬ 160 < vflap_2 sea_level_density design_wing_loading landing_lift_coefficient_max := not_lt.mpr hlt.le
      unfold J_flap_mass__landing_lift_coefficient_max
      rw [if_neg h2, show (2733 / 10000 : ℝ) - 1 = -(7267 / 10000) by norm_num]
      show _ = (wing_high_lift_mass_coefficient * sflap wing_area wing_flap_chord_ratio wing_taper_ratio wing_flap_span_ratio wing_thickness_to_chord_root wing_span fuselage_avg_diameter wing_center_chord) * (369 / 1000) * _
      ring
    · exact if_neg (not_lt.mpr (le_of_lt hy))
  · have ev := hV.continuousAt.eventually_const_lt hgt
    have := ((hV.rpow_const (p := (439 / 200 : ℝ)) (Or.inl hV0.ne')).const_mul
      (wing_high_lift_mass_coefficient * sflap wing_area wing_flap_chord_ratio wing_taper_ratio wing_flap_span_ratio wing_thickness_to_chord_root wing_span fuselage_avg_diameter wing_center_chord)).div_const 45180
    refine HasDerivAt.congr_of_eventuallyEq (f₁ := fun y => out_flap_mass sea_level_density wing_high_lift_mass_coefficient wing_area wing_flap_chord_ratio wing_taper_ratio wing_flap_span_ratio design_wing_loading wing_thickness_to_chord_root wing_span fuselage_avg_diameter wing_center_chord y)
      (deriv_as this (fun _ => rfl) ?_) (ev.mono fun y hy => ?_)
    · have h2 : 160 < vflap_2 sea_level_density design_wing_loading landing_lift_coefficient_max := hgt
      unfold J_flap_mass__landing_lift_coefficient_max
      rw [if_pos h2, show (439 / 200 : ℝ) - 1 = 239 / 200 by norm_num]
      show (wing_high_lift_mass_coefficient * sflap wing_area wing_flap_chord_ratio wing_taper_ratio wing_flap_span_ratio wing_thickness_to_chord_root wing_span fuselage_avg_diameter wing_center_chord) * _ / _ = _
      ring
    · exact if_pos hy

/-- the declared derivative of `wing_high_lift_mass` by `design_wing_loading` is right,
aviary/subsystems/mass/gasp_based/fixed.py:1353-2146 -/
theorem all_design_wing_loading (sea_level_density wing_high_lift_mass_coefficient wing_area wing_slat_chord_ratio wing_flap_chord_ratio wing_taper_ratio wing_flap_span_ratio wing_slat_span_ratio design_wing_loading wing_thickness_to_chord_root wing_span fuselage_avg_diameter wing_center_chord landing_lift_coefficient_max : ℝ)
    (hl : 0 < wing_taper_ratio)
    (ht : 0 < wing_thickness_to_chord_root)
    (hc : 0 < wing_center_chord)
    (hd : 0 < fuselage_avg_diameter - (wing_thickness_to_chord_root * wing_center_chord))
    (hb : 0 < wing_span)
    (hs : 0 < wing_slat_chord_ratio)
    (ha : 0 < wing_area)
    (hr : 0 < wing_slat_span_ratio)
    (h8 : 0 < 2 - ((1 - wing_taper_ratio) * ((99 / 100) + (((2 * (sqrt ((wing_thickness_to_chord_root * wing_center_chord) * (fuselage_avg_diameter - (wing_thickness_to_chord_root * wing_center_chord))))) + (2 / 5)) / wing_span))))
    (hq : 0 < sea_level_density)
    (hm : 0 < landing_lift_coefficient_max)
    (hg : 0 < design_wing_loading)
    (hv : vflap sea_level_density design_wing_loading landing_lift_coefficient_max ≠ 160) :
    HasDerivAt (fun y => out_wing_high_lift_mass sea_level_density wing_high_lift_mass_coefficient wing_area wing_slat_chord_ratio wing_flap_chord_ratio wing_taper_ratio wing_flap_span_ratio wing_slat_span_ratio y wing_thickness_to_chord_root wing_span fuselage_avg_diameter wing_center_chord landing_lift_coefficient_max)
      (J_wing_high_lift_mass__design_wing_loading sea_level_density wing_high_lift_mass_coefficient wing_area wing_flap_chord_ratio wing_taper_ratio wing_flap_span_ratio design_wing_loading wing_thickness_to_chord_root wing_span fuselage_avg_diameter wing_center_chord landing_lift_coefficient_max) design_wing_loading := by
  have h1 : HasDerivAt (fun y => out_flap_mass sea_level_density wing_high_lift_mass_coefficient wing_area wing_flap_chord_ratio wing_taper_ratio wing_flap_span_ratio y wing_thickness_to_chord_root wing_span fuselage_avg_diameter wing_center_chord landing_lift_coefficient_max) (J_flap_mass__design_wing_loading sea_level_density wing_high_lift_mass_coefficient wing_area wing_flap_chord_ratio wing_taper_ratio wing_flap_span_ratio design_wing_loading wing_thickness_to_chord_root wing_span fuselage_avg_diameter wing_center_chord landing_lift_coefficient_max) design_wing_loading := by
    apply flap_design_wing_loading <;> assumption
  have h2 : HasDerivAt (fun _ => out_slat_mass wing_area wing_slat_chord_ratio wing_taper_ratio wing_slat_span_ratio wing_thickness_to_chord_root wing_span fuselage_avg_diameter wing_center_chord) 0 design_wing_loading := hasDerivAt_const _ _
  exact deriv_as (h1.add h2) (fun _ => rfl) (add_zero _).symm

/-- the declared derivative of `wing_high_lift_mass` by `fuselage_avg_diameter` is right,
aviary/subsystems/mass/gasp_based/fixed.py:1353-2146 -/
theorem all_fuselage_avg_diameter (sea_level_density wing_high_lift_mass_coefficient wing_area wing_slat_chord_ratio wing_flap_chord_ratio wing_taper_ratio wing_flap_span_ratio wing_slat_span_ratio design_wing_loading wing_thickness_to_chord_root wing_span fuselage_avg_diameter wing_center_chord landing_lift_coefficient_max : ℝ)
    (hl : 0 < wing_taper_ratio)
    (ht : 0 < wing_thickness_to_chord_root)
    (hc : 0 < wing_center_chord)
    (hd : 0 < fuselage_avg_diameter - (wing_thickness_to_chord_root * wing_center_chord))
    (hb : 0 < wing_span)
    (hs : 0 < wing_slat_chord_ratio)
    (ha : 0 < wing_area)
    (hr : 0 < wing_slat_span_ratio)
    (h8 : 0 < 2 - ((1 - wing_taper_ratio) * ((99 / 100) + (((2 * (sqrt ((wing_thickness_to_chord_root * wing_center_chord) * (fuselage_avg_diameter - (wing_thickness_to_chord_root * wing_center_chord))))) + (2 / 5)) / wing_span))))
    (hq : 0 < sea_level_density)
    (hm : 0 < landing_lift_coefficient_max)
    (hg : 0 < design_wing_loading) :
    HasDerivAt (fun y => out_wing_high_lift_mass sea_level_density wing_high_lift_mass_coefficient wing_area wing_slat_chord_ratio wing_flap_chord_ratio wing_taper_ratio wing_flap_span_ratio wing_slat_span_ratio design_wing_loading wing_thickness_to_chord_root wing_span y wing_center_chord landing_lift_coefficient_max)
      (J_wing_high_lift_mass__fuselage_avg_diameter sea_level_density wing_high_lift_mass_coefficient wing_area wing_slat_chord_ratio wing_flap_chord_ratio wing_taper_ratio wing_slat_span_ratio design_wing_loading wing_thickness_to_chord_root wing_span fuselage_avg_diameter wing_center_chord landing_lift_coefficient_max) fuselage_avg_diameter := by
  have hu : 0 < (wing_thickness_to_chord_root * wing_center_chord) * (fuselage_avg_diameter - wing_thickness_to_chord_root * wing_center_chord) := mul_pos (mul_pos ht hc) hd
  have h1 : HasDerivAt (fun y => out_flap_mass sea_level_density wing_high_lift_mass_coefficient wing_area wing_flap_chord_ratio wing_taper_ratio wing_flap_span_ratio design_wing_loading wing_thickness_to_chord_root wing_span y wing_center_chord landing_lift_coefficient_max) (J_flap_mass__fuselage_avg_diameter sea_level_density wing_high_lift_mass_coefficient wing_area wing_flap_chord_ratio wing_taper_ratio design_wing_loading wing_thickness_to_chord_root wing_span fuselage_avg_diameter wing_center_chord landing_lift_coefficient_max) fuselage_avg_diameter := by
    apply d_flap_mass__fuselage_avg_diameter <;> assumption
  have h2 : HasDerivAt (fun y => out_slat_mass wing_area wing_slat_chord_ratio wing_taper_ratio wing_slat_span_ratio wing_thickness_to_chord_root wing_span y wing_center_chord) (J_slat_mass__fuselage_avg_diameter wing_area wing_slat_chord_ratio wing_taper_ratio wing_slat_span_ratio wing_thickness_to_chord_root wing_span fuselage_avg_diameter wing_center_chord) fuselage_avg_diameter := by
    apply slat_fuselage_avg_diameter <;> assumption
  exact deriv_as (h1.add h2) (fun _ => rfl) rfl

/-- the declared derivative of `wing_high_lift_mass` by `landing_lift_coefficient_max` is right,
aviary/subsystems/mass/gasp_based/fixed.py:1353-2146 -/
theorem all_landing_lift_coefficient_max (sea_level_density wing_high_lift_mass_coefficient wing_area wing_slat_chord_ratio wing_flap_chord_ratio wing_taper_ratio wing_flap_span_ratio wing_slat_span_ratio design_wing_loading wing_thickness_to_chord_root wing_span fuselage_avg_diameter wing_center_chord landing_lift_coefficient_max : ℝ)
    (hl : 0 < wing_taper_ratio)
    (ht : 0 < wing_thickness_to_chord_root)
    (hc : 0 < wing_center_chord)
    (hd : 0 < fuselage_avg_diameter - (wing_thickness_to_chord_root * wing_center_chord))
    (hb : 0 < wing_span)
    (hs : 0 < wing_slat_chord_ratio)
    (ha : 0 < wing_area)
    (hr : 0 < wing_slat_span_ratio)
    (h8 : 0 < 2 - ((1 - wing_taper_ratio) * ((99 / 100) + (((2 * (sqrt ((wing_thickness_to_chord_root * wing_center_chord) * (fuselage_avg_diameter - (wing_thickness_to_chord_root * wing_center_chord))))) + (2 / 5)) / wing_span))))
    (hq : 0 < sea_level_density)
    (hm : 0 < landing_lift_coefficient_max)
    (hg : 0 < design_wing_loading)
    (hv : vflap sea_level_density design_wing_loading landing_lift_coefficient_max ≠ 160) :
    HasDerivAt (fun y => out_wing_high_lift_mass sea_level_density wing_high_lift_mass_coefficient wing_area wing_slat_chord_ratio wing_flap_chord_ratio wing_taper_ratio wing_flap_span_ratio wing_slat_span_ratio design_wing_loading wing_thickness_to_chord_root wing_span fuselage_avg_diameter wing_center_chord y)
      (J_wing_high_lift_mass__landing_lift_coefficient_max sea_level_density wing_high_lift_mass_coefficient wing_area wing_flap_chord_ratio wing_taper_ratio wing_flap_span_ratio design_wing_loading wing_thickness_to_chord_root wing_span fuselage_avg_diameter wing_center_chord landing_lift_coefficient_max) landing_lift_coefficient_max := by
  have h1 : HasDerivAt (fun y => out_flap_mass sea_level_density wing_high_lift_mass_coefficient wing_area wing_flap_chord_ratio wing_taper_ratio wing_flap_span_ratio design_wing_loading wing_thickness_to_chord_root wing_span fuselage_avg_diameter wing_center_chord y) (J_flap_mass__landing_lift_coefficient_max sea_level_density wing_high_lift_mass_coefficient wing_area wing_flap_chord_ratio wing_taper_ratio wing_flap_span_ratio design_wing_loading wing_thickness_to_chord_root wing_span fuselage_avg_diameter wing_center_chord landing_lift_coefficient_max) landing_lift_coefficient_max := by
    apply flap_landing_lift_coefficient_max <;> assumption
  have h2 : HasDerivAt (fun _ => out_slat_mass wing_area wing_slat_chord_ratio wing_taper_ratio wing_slat_span_ratio wing_thickness_to_chord_root wing_span fuselage_avg_diameter wing_center_chord) 0 landing_lift_coefficient_max := hasDerivAt_const _ _
  exact deriv_as (h1.add h2) (fun _ => rfl) (add_zero _).symm

/-- the declared derivative of `wing_high_lift_mass` by `wing_area` is right,
aviary/subsystems/mass/gasp_based/fixed.py:1353-2146 -/
theorem all_wing_area (sea_level_density wing_high_lift_mass_coefficient wing_area wing_slat_chord_ratio wing_flap_chord_ratio wing_taper_ratio wing_flap_span_ratio wing_slat_span_ratio design_wing_loading wing_thickness_to_chord_root wing_span fuselage_avg_diameter wing_center_chord landing_lift_coefficient_max : ℝ)
    (hl : 0 < wing_taper_ratio)
    (ht : 0 < wing_thickness_to_chord_root)
    (hc : 0 < wing_center_chord)
    (hd : 0 < fuselage_avg_diameter - (wing_thickness_to_chord_root * wing_center_chord))
    (hb : 0 < wing_span)
    (hs : 0 < wing_slat_chord_ratio)
    (ha : 0 < wing_area)
    (hr : 0 < wing_slat_span_ratio)
    (h8 : 0 < 2 - ((1 - wing_taper_ratio) * ((99 / 100) + (((2 * (sqrt ((wing_thickness_to_chord_root * wing_center_chord) * (fuselage_avg_diameter - (wing_thickness_to_chord_root * wing_center_chord))))) + (2 / 5)) / wing_span))))
    (hq : 0 < sea_level_density)
    (hm : 0 < landing_lift_coefficient_max)
    (hg : 0 < design_wing_loading) :
    HasDerivAt (fun y => out_wing_high_lift_mass sea_level_density wing_high_lift_mass_coefficient y wing_slat_chord_ratio wing_flap_chord_ratio wing_taper_ratio wing_flap_span_ratio wing_slat_span_ratio design_wing_loading wing_thickness_to_chord_root wing_span fuselage_avg_diameter wing_center_chord landing_lift_coefficient_max)
      (J_wing_high_lift_mass__wing_area sea_level_density wing_high_lift_mass_coefficient wing_area wing_slat_chord_ratio wing_flap_chord_ratio wing_taper_ratio wing_flap_span_ratio wing_slat_span_ratio design_wing_loading wing_thickness_to_chord_root wing_span fuselage_avg_diameter wing_center_chord landing_lift_coefficient_max) wing_area := by
  have h1 : HasDerivAt (fun y => out_flap_mass sea_level_density wing_high_lift_mass_coefficient y wing_flap_chord_ratio wing_taper_ratio wing_flap_span_ratio design_wing_loading wing_thickness_to_chord_root wing_span fuselage_avg_diameter wing_center_chord landing_lift_coefficient_max) (J_flap_mass__wing_area sea_level_density wing_high_lift_mass_coefficient wing_flap_chord_ratio wing_taper_ratio wing_flap_span_ratio design_wing_loading wing_thickness_to_chord_root wing_span fuselage_avg_diameter wing_center_chord landing_lift_coefficient_max) wing_area := by
    apply d_flap_mass__wing_area <;> assumption
  have h2 : HasDerivAt (fun y => out_slat_mass y wing_slat_chord_ratio wing_taper_ratio wing_slat_span_ratio wing_thickness_to_chord_root wing_span fuselage_avg_diameter wing_center_chord) (J_slat_mass__wing_area wing_area wing_slat_chord_ratio wing_taper_ratio wing_slat_span_ratio wing_thickness_to_chord_root wing_span fuselage_avg_diameter wing_center_chord) wing_area := by
    apply slat_wing_area <;> assumption
  exact deriv_as (h1.add h2) (fun _ => rfl) rfl

/-- the declared derivative of `wing_high_lift_mass` by `wing_center_chord` is right,
aviary/subsystems/mass/gasp_based/fixed.py:1353-2146 -/
theorem all_wing_center_chord (sea_level_density wing_high_lift_mass_coefficient wing_area wing_slat_chord_ratio wing_flap_chord_ratio wing_taper_ratio wing_flap_span_ratio wing_slat_span_ratio design_wing_loading wing_thickness_to_chord_root wing_span fuselage_avg_diameter wing_center_chord landing_lift_coefficient_max : ℝ)
    (hl : 0 < wing_taper_ratio)
    (ht : 0 < wing_thickness_to_chord_root)
    (hc : 0 < wing_center_chord)
    (hd : 0 < fuselage_avg_diameter - (wing_thickness_to_chord_root * wing_center_chord))
    (hb : 0 < wing_span)
    (hs : 0 < wing_slat_chord_ratio)
    (ha : 0 < wing_area)
    (hr : 0 < wing_slat_span_ratio)
    (h8 : 0 < 2 - ((1 - wing_taper_ratio) * ((99 / 100) + (((2 * (sqrt ((wing_thickness_to_chord_root * wing_center_chord) * (fuselage_avg_diameter - (wing_thickness_to_chord_root * wing_center_chord))))) + (2 / 5)) / wing_span))))
    (hq : 0 < sea_level_density)
    (hm : 0 < landing_lift_coefficient_max)
    (hg : 0 < design_wing_loading) :
    HasDerivAt (fun y => out_wing_high_lift_mass sea_level_density wing_high_lift_mass_coefficient wing_area wing_slat_chord_ratio wing_flap_chord_ratio wing_taper_ratio wing_flap_span_ratio wing_slat_span_ratio design_wing_loading wing_thickness_to_chord_root wing_span fuselage_avg_diameter y landing_lift_coefficient_max)
      (J_wing_high_lift_mass__wing_center_chord sea_level_density wing_high_lift_mass_coefficient wing_area wing_slat_chord_ratio wing_flap_chord_ratio wing_taper_ratio wing_slat_span_ratio design_wing_loading wing_thickness_to_chord_root wing_span fuselage_avg_diameter wing_center_chord landing_lift_coefficient_max) wing_center_chord := by
  have hu : 0 < (wing_thickness_to_chord_root * wing_center_chord) * (fuselage_avg_diameter - wing_thickness_to_chord_root * wing_center_chord) := mul_pos (mul_pos ht hc) hd
  have h1 : HasDerivAt (fun y => out_flap_mass sea_level_density wing_high_lift_mass_coefficient wing_area wing_flap_chord_ratio wing_taper_ratio wing_flap_span_ratio design_wing_loading wing_thickness_to_chord_root wing_span fuselage_avg_diameter y landing_lift_coefficient_max) (J_flap_mass__wing_center_chord sea_level_density wing_high_lift_mass_coefficient wing_area wing_flap_chord_ratio wing_taper_ratio design_wing_loading wing_thickness_to_chord_root wing_span fuselage_avg_diameter wing_center_chord landing_lift_coefficient_max) wing_center_chord := by
    apply d_flap_mass__wing_center_chord <;> assumption
  have h2 : HasDerivAt (fun y => out_slat_mass wing_area wing_slat_chord_ratio wing_taper_ratio wing_slat_span_ratio wing_thickness_to_chord_root wing_span fuselage_avg_diameter y) (J_slat_mass__wing_center_chord wing_area wing_slat_chord_ratio wing_taper_ratio wing_slat_span_ratio wing_thickness_to_chord_root wing_span fuselage_avg_diameter wing_center_chord) wing_center_chord := by
    apply slat_wing_center_chord <;> assumption
  exact deriv_as (h1.add h2) (fun _ => rfl) rfl

/-- the declared derivative of `wing_high_lift_mass` by `wing_slat_chord_ratio` is right,
aviary/subsystems/mass/gasp_based/fixed.py:1353-2146 -/
theorem all_wing_slat_chord_ratio (sea_level_density wing_high_lift_mass_coefficient wing_area wing_slat_chord_ratio wing_flap_chord_ratio wing_taper_ratio wing_flap_span_ratio wing_slat_span_ratio design_wing_loading wing_thickness_to_chord_root wing_span fuselage_avg_diameter wing_center_chord landing_lift_coefficient_max : ℝ)
    (hl : 0 < wing_taper_ratio)
    (ht : 0 < wing_thickness_to_chord_root)
    (hc : 0 < wing_center_chord)
    (hd : 0 < fuselage_avg_diameter - (wing_thickness_to_chord_root * wing_center_chord))
    (hb : 0 < wing_span)
    (hs : 0 < wing_slat_chord_ratio)
    (ha : 0 < wing_area)
    (hr : 0 < wing_slat_span_ratio)
    (h8 : 0 < 2 - ((1 - wing_taper_ratio) * ((99 / 100) + (((2 * (sqrt ((wing_thickness_to_chord_root * wing_center_chord) * (fuselage_avg_diameter - (wing_thickness_to_chord_root * wing_center_chord))))) + (2 / 5)) / wing_span))))
    (hq : 0 < sea_level_density)
    (hm : 0 < landing_lift_coefficient_max)
    (hg : 0 < design_wing_loading) :
    HasDerivAt (fun y => out_wing_high_lift_mass sea_level_density wing_high_lift_mass_coefficient wing_area y wing_flap_chord_ratio wing_taper_ratio wing_flap_span_ratio wing_slat_span_ratio design_wing_loading wing_thickness_to_chord_root wing_span fuselage_avg_diameter wing_center_chord landing_lift_coefficient_max)
      (J_wing_high_lift_mass__wing_slat_chord_ratio wing_area wing_slat_chord_ratio wing_taper_ratio wing_slat_span_ratio wing_thickness_to_chord_root wing_span fuselage_avg_diameter wing_center_chord) wing_slat_chord_ratio := by
  have h1 : HasDerivAt (fun _ => out_flap_mass sea_level_density wing_high_lift_mass_coefficient wing_area wing_flap_chord_ratio wing_taper_ratio wing_flap_span_ratio design_wing_loading wing_thickness_to_chord_root wing_span fuselage_avg_diameter wing_center_chord landing_lift_coefficient_max) 0 wing_slat_chord_ratio := hasDerivAt_const _ _
  have h2 : HasDerivAt (fun y => out_slat_mass wing_area y wing_taper_ratio wing_slat_span_ratio wing_thickness_to_chord_root wing_span fuselage_avg_diameter wing_center_chord) (J_slat_mass__wing_slat_chord_ratio wing_area wing_slat_chord_ratio wing_taper_ratio wing_slat_span_ratio wing_thickness_to_chord_root wing_span fuselage_avg_diameter wing_center_chord) wing_slat_chord_ratio := by
    apply slat_wing_slat_chord_ratio <;> assumption
  exact deriv_as (h1.add h2) (fun _ => rfl) (zero_add _).symm

/-- the declared derivative of `wing_high_lift_mass` by `wing_slat_span_ratio` is right,
aviary/subsystems/mass/gasp_based/fixed.py:1353-2146 -/
theorem all_wing_slat_span_ratio (sea_level_density wing_high_lift_mass_coefficient wing_area wing_slat_chord_ratio wing_flap_chord_ratio wing_taper_ratio wing_flap_span_ratio wing_slat_span_ratio design_wing_loading wing_thickness_to_chord_root wing_span fuselage_avg_diameter wing_center_chord landing_lift_coefficient_max : ℝ)
    (hl : 0 < wing_taper_ratio)
    (ht : 0 < wing_thickness_to_chord_root)
    (hc : 0 < wing_center_chord)
    (hd : 0 < fuselage_avg_diameter - (wing_thickness_to_chord_root * wing_center_chord))
    (hb : 0 < wing_span)
    (hs : 0 < wing_slat_chord_ratio)
    (ha : 0 < wing_area)
    (hr : 0 < wing_slat_span_ratio)
    (h8 : 0 < 2 - ((1 - wing_taper_ratio) * ((99 / 100) + (((2 * (sqrt ((wing_thickness_to_chord_root * wing_center_chord) * (fuselage_avg_diameter - (wing_thickness_to_chord_root * wing_center_chord))))) + (2 / 5)) / wing_span))))
    (hq : 0 < sea_level_density)
    (hm : 0 < landing_lift_coefficient_max)
    (hg : 0 < design_wing_loading) :
    HasDerivAt (fun y => out_wing_high_lift_mass sea_level_density wing_high_lift_mass_coefficient wing_area wing_slat_chord_ratio wing_flap_chord_ratio wing_taper_ratio wing_flap_span_ratio y design_wing_loading wing_thickness_to_chord_root wing_span fuselage_avg_diameter wing_center_chord landing_lift_coefficient_max)
      (J_wing_high_lift_mass__wing_slat_span_ratio wing_area wing_slat_chord_ratio wing_taper_ratio wing_slat_span_ratio wing_thickness_to_chord_root wing_span fuselage_avg_diameter wing_center_chord) wing_slat_span_ratio := by
  have h1 : HasDerivAt (fun _ => out_flap_mass sea_level_density wing_high_lift_mass_coefficient wing_area wing_flap_chord_ratio wing_taper_ratio wing_flap_span_ratio design_wing_loading wing_thickness_to_chord_root wing_span fuselage_avg_diameter wing_center_chord landing_lift_coefficient_max) 0 wing_slat_span_ratio := hasDerivAt_const _ _
  have h2 : HasDerivAt (fun y => out_slat_mass wing_area wing_slat_chord_ratio wing_taper_ratio y wing_thickness_to_chord_root wing_span fuselage_avg_diameter wing_center_chord) (J_slat_mass__wing_slat_span_ratio wing_area wing_slat_chord_ratio wing_taper_ratio wing_slat_span_ratio wing_thickness_to_chord_root wing_span fuselage_avg_diameter wing_center_chord) wing_slat_span_ratio := by
    apply slat_wing_slat_span_ratio <;> assumption
  exact deriv_as (h1.add h2) (fun _ => rfl) (zero_add _).symm

/-- the declared derivative of `wing_high_lift_mass` by `wing_span` is right,
aviary/subsystems/mass/gasp_based/fixed.py:1353-2146 -/
theorem all_wing_span (sea_level_density wing_high_lift_mass_coefficient wing_area wing_slat_chord_ratio wing_flap_chord_ratio wing_taper_ratio wing_flap_span_ratio wing_slat_span_ratio design_wing_loading wing_thickness_to_chord_root wing_span fuselage_avg_diameter wing_center_chord landing_lift_coefficient_max : ℝ)
    (hl : 0 < wing_taper_ratio)
    (ht : 0 < wing_thickness_to_chord_root)
    (hc : 0 < wing_center_chord)
    (hd : 0 < fuselage_avg_diameter - (wing_thickness_to_chord_root * wing_center_chord))
    (hb : 0 < wing_span)
    (hs : 0 < wing_slat_chord_ratio)
    (ha : 0 < wing_area)
    (hr : 0 < wing_slat_span_ratio)
    (h8 : 0 < 2 - ((1 - wing_taper_ratio) * ((99 / 100) + (((2 * (sqrt ((wing_thickness_to_chord_root * wing_center_chord) * (fuselage_avg_diameter - (wing_thickness_to_chord_root * wing_center_chord))))) + (2 / 5)) / wing_span))))
    (hq : 0 < sea_level_density)
    (hm : 0 < landing_lift_coefficient_max)
    (hg : 0 < design_wing_loading) :
    HasDerivAt (fun y => out_wing_high_lift_mass sea_level_density wing_high_lift_mass_coefficient wing_area wing_slat_chord_ratio wing_flap_chord_ratio wing_taper_ratio wing_flap_span_ratio wing_slat_span_ratio design_wing_loading wing_thickness_to_chord_root y fuselage_avg_diameter wing_center_chord landing_lift_coefficient_max)
      (J_wing_high_lift_mass__wing_span sea_level_density wing_high_lift_mass_coefficient wing_area wing_slat_chord_ratio wing_flap_chord_ratio wing_taper_ratio wing_slat_span_ratio design_wing_loading wing_thickness_to_chord_root wing_span fuselage_avg_diameter wing_center_chord landing_lift_coefficient_max) wing_span := by
  have h1 : HasDerivAt (fun y => out_flap_mass sea_level_density wing_high_lift_mass_coefficient wing_area wing_flap_chord_ratio wing_taper_ratio wing_flap_span_ratio design_wing_loading wing_thickness_to_chord_root y fuselage_avg_diameter wing_center_chord landing_lift_coefficient_max) (J_flap_mass__wing_span sea_level_density wing_high_lift_mass_coefficient wing_area wing_flap_chord_ratio wing_taper_ratio design_wing_loading wing_thickness_to_chord_root wing_span fuselage_avg_diameter wing_center_chord landing_lift_coefficient_max) wing_span := by
    apply d_flap_mass__wing_span <;> assumption
  have h2 : HasDerivAt (fun y => out_slat_mass wing_area wing_slat_chord_ratio wing_taper_ratio wing_slat_span_ratio wing_thickness_to_chord_root y fuselage_avg_diameter wing_center_chord) (J_slat_mass__wing_span wing_area wing_slat_chord_ratio wing_taper_ratio wing_slat_span_ratio wing_thickness_to_chord_root wing_span fuselage_avg_diameter wing_center_chord) wing_span := by
    apply slat_wing_span <;> assumption
  exact deriv_as (h1.add h2) (fun _ => rfl) rfl

/-- the declared derivative of `wing_high_lift_mass` by `wing_taper_ratio` is right,
aviary/subsystems/mass/gasp_based/fixed.py:1353-2146 -/
theorem all_wing_taper_ratio (sea_level_density wing_high_lift_mass_coefficient wing_area wing_slat_chord_ratio wing_flap_chord_ratio wing_taper_ratio wing_flap_span_ratio wing_slat_span_ratio design_wing_loading wing_thickness_to_chord_root wing_span fuselage_avg_diameter wing_center_chord landing_lift_coefficient_max : ℝ)
    (hl : 0 < wing_taper_ratio)
    (ht : 0 < wing_thickness_to_chord_root)
    (hc : 0 < wing_center_chord)
    (hd : 0 < fuselage_avg_diameter - (wing_thickness_to_chord_root * wing_center_chord))
    (hb : 0 < wing_span)
    (hs : 0 < wing_slat_chord_ratio)
    (ha : 0 < wing_area)
    (hr : 0 < wing_slat_span_ratio)
    (h8 : 0 < 2 - ((1 - wing_taper_ratio) * ((99 / 100) + (((2 * (sqrt ((wing_thickness_to_chord_root * wing_center_chord) * (fuselage_avg_diameter - (wing_thickness_to_chord_root * wing_center_chord))))) + (2 / 5)) / wing_span))))
    (hq : 0 < sea_level_density)
    (hm : 0 < landing_lift_coefficient_max)
    (hg : 0 < design_wing_loading) :
    HasDerivAt (fun y => out_wing_high_lift_mass sea_level_density wing_high_lift_mass_coefficient wing_area wing_slat_chord_ratio wing_flap_chord_ratio y wing_flap_span_ratio wing_slat_span_ratio design_wing_loading wing_thickness_to_chord_root wing_span fuselage_avg_diameter wing_center_chord landing_lift_coefficient_max)
      (J_wing_high_lift_mass__wing_taper_ratio sea_level_density wing_high_lift_mass_coefficient wing_area wing_slat_chord_ratio wing_flap_chord_ratio wing_taper_ratio wing_flap_span_ratio wing_slat_span_ratio design_wing_loading wing_thickness_to_chord_root wing_span fuselage_avg_diameter wing_center_chord landing_lift_coefficient_max) wing_taper_ratio := by
  have h1 : HasDerivAt (fun y => out_flap_mass sea_level_density wing_high_lift_mass_coefficient wing_area wing_flap_chord_ratio y wing_flap_span_ratio design_wing_loading wing_thickness_to_chord_root wing_span fuselage_avg_diameter wing_center_chord landing_lift_coefficient_max) (J_flap_mass__wing_taper_ratio sea_level_density wing_high_lift_mass_coefficient wing_area wing_flap_chord_ratio wing_taper_ratio wing_flap_span_ratio design_wing_loading wing_thickness_to_chord_root wing_span fuselage_avg_diameter wing_center_chord landing_lift_coefficient_max) wing_taper_ratio := by
    apply d_flap_mass__wing_taper_ratio <;> assumption
  have h2 : HasDerivAt (fun y => out_slat_mass wing_area wing_slat_chord_ratio y wing_slat_span_ratio wing_thickness_to_chord_root wing_span fuselage_avg_diameter wing_center_chord) (J_slat_mass__wing_taper_ratio wing_area wing_slat_chord_ratio wing_taper_ratio wing_slat_span_ratio wing_thickness_to_chord_root wing_span fuselage_avg_diameter wing_center_chord) wing_taper_ratio := by
    apply slat_wing_taper_ratio <;> assumption
  exact deriv_as (h1.add h2) (fun _ => rfl) rfl

/-- the declared derivative of `wing_high_lift_mass` by `wing_thickness_to_chord_root` is right,
aviary/subsystems/mass/gasp_based/fixed.py:1353-2146 -/
theorem all_wing_thickness_to_chord_root (sea_level_density wing_high_lift_mass_coefficient wing_area wing_slat_chord_ratio wing_flap_chord_ratio wing_taper_ratio wing_flap_span_ratio wing_slat_span_ratio design_wing_loading wing_thickness_to_chord_root wing_span fuselage_avg_diameter wing_center_chord landing_lift_coefficient_max : ℝ)
    (hl : 0 < wing_taper_ratio)
    (ht : 0 < wing_thickness_to_chord_root)
    (hc : 0 < wing_center_chord)
    (hd : 0 < fuselage_avg_diameter - (wing_thickness_to_chord_root * wing_center_chord))
    (hb : 0 < wing_span)
    (hs : 0 < wing_slat_chord_ratio)
    (ha : 0 < wing_area)
    (hr : 0 < wing_slat_span_ratio)
    (h8 : 0 < 2 - ((1 - wing_taper_ratio) * ((99 / 100) + (((2 * (sqrt ((wing_thickness_to_chord_root * wing_center_chord) * (fuselage_avg_diameter - (wing_thickness_to_chord_root * wing_center_chord))))) + (2 / 5)) / wing_span))))
    (hq : 0 < sea_level_density)
    (hm : 0 < landing_lift_coefficient_max)
    (hg : 0 < design_wing_loading) :
    HasDerivAt (fun y => out_wing_high_lift_mass sea_level_density wing_high_lift_mass_coefficient wing_area wing_slat_chord_ratio wing_flap_chord_ratio wing_taper_ratio wing_flap_span_ratio wing_slat_span_ratio design_wing_loading y wing_span fuselage_avg_diameter wing_center_chord landing_lift_coefficient_max)
      (J_wing_high_lift_mass__wing_thickness_to_chord_root sea_level_density wing_high_lift_mass_coefficient wing_area wing_slat_chord_ratio wing_flap_chord_ratio wing_taper_ratio wing_slat_span_ratio design_wing_loading wing_thickness_to_chord_root wing_span fuselage_avg_diameter wing_center_chord landing_lift_coefficient_max) wing_thickness_to_chord_root := by
  have hu : 0 < (wing_thickness_to_chord_root * wing_center_chord) * (fuselage_avg_diameter - wing_thickness_to_chord_root * wing_center_chord) := mul_pos (mul_pos ht hc) hd
  have h1 : HasDerivAt (fun y => out_flap_mass sea_level_density wing_high_lift_mass_coefficient wing_area wing_flap_chord_ratio wing_taper_ratio wing_flap_span_ratio design_wing_loading y wing_span fuselage_avg_diameter wing_center_chord landing_lift_coefficient_max) (J_flap_mass__wing_thickness_to_chord_root sea_level_density wing_high_lift_mass_coefficient wing_area wing_flap_chord_ratio wing_taper_ratio design_wing_loading wing_thickness_to_chord_root wing_span fuselage_avg_diameter wing_center_chord landing_lift_coefficient_max) wing_thickness_to_chord_root := by
    apply d_flap_mass__wing_thickness_to_chord_root <;> assumption
  have h2 : HasDerivAt (fun y => out_slat_mass wing_area wing_slat_chord_ratio wing_taper_ratio wing_slat_span_ratio y wing_span fuselage_avg_diameter wing_center_chord) (J_slat_mass__wing_thickness_to_chord_root wing_area wing_slat_chord_ratio wing_taper_ratio wing_slat_span_ratio wing_thickness_to_chord_root wing_span fuselage_avg_diameter wing_center_chord) wing_thickness_to_chord_root := by
    apply slat_wing_thickness_to_chord_root <;> assumption
  exact deriv_as (h1.add h2) (fun _ => rfl) rfl

end split

namespace singleslotted
open Verif.Comp.MassGaspBasedFixed.HighLiftMass_singleslotted

/-- the declared derivative of `slat_mass` by `fuselage_avg_diameter` is right,
aviary/subsystems/mass/gasp_based/fixed.py:1353-2146 -/
theorem slat_fuselage_avg_diameter (wing_area wing_slat_chord_ratio wing_taper_ratio wing_slat_span_ratio wing_thickness_to_chord_root wing_span fuselage_avg_diameter wing_center_chord : ℝ)
    (hl : 0 < wing_taper_ratio)
    (ht : 0 < wing_thickness_to_chord_root)
    (hc : 0 < wing_center_chord)
    (hd : 0 < fuselage_avg_diameter - (wing_thickness_to_chord_root * wing_center_chord))
    (hb : 0 < wing_span)
    (hs : 0 < wing_slat_chord_ratio)
    (ha : 0 < wing_area)
    (hr : 0 < wing_slat_span_ratio)
    (h8 : 0 < 2 - ((1 - wing_taper_ratio) * ((99 / 100) + (((2 * (sqrt ((wing_thickness_to_chord_root * wing_center_chord) * (fuselage_avg_diameter - (wing_thickness_to_chord_root * wing_center_chord))))) + (2 / 5)) / wing_span)))) :
    HasDerivAt (fun y => out_slat_mass wing_area wing_slat_chord_ratio wing_taper_ratio wing_slat_span_ratio wing_thickness_to_chord_root wing_span y wing_center_chord)
      (J_slat_mass__fuselage_avg_diameter wing_area wing_slat_chord_ratio wing_taper_ratio wing_slat_span_ratio wing_thickness_to_chord_root wing_span fuselage_avg_diameter wing_center_chord) fuselage_avg_diameter := by
  have hu : 0 < (wing_thickness_to_chord_root * wing_center_chord) * (fuselage_avg_diameter - wing_thickness_to_chord_root * wing_center_chord) := mul_pos (mul_pos ht hc) hd
  have hk : 0 < sle wing_area wing_slat_chord_ratio wing_taper_ratio wing_slat_span_ratio wing_thickness_to_chord_root wing_span fuselage_avg_diameter wing_center_chord := by
    unfold sle body_to_span_ratio
    have := mul_pos (mul_pos (div_pos (mul_pos hs ha) (show 0 < 1 + wing_taper_ratio by linarith)) hr) h8
    exact this
  refine deriv_as (slat_pow (sle_chain (btsr_cw wing_thickness_to_chord_root wing_span fuselage_avg_diameter wing_center_chord hu) wing_slat_chord_ratio wing_area wing_taper_ratio wing_slat_span_ratio) hk) (fun _ => rfl) ?_
  simp only [J_slat_mass__fuselage_avg_diameter, sle_2, body_to_span_ratio_2, u1, dsle_dbtsr, dbtsr_dcw]
  ring

/-- the declared derivative of `slat_mass` by `wing_center_chord` is right,
aviary/subsystems/mass/gasp_based/fixed.py:1353-2146 -/
theorem slat_wing_center_chord (wing_area wing_slat_chord_ratio wing_taper_ratio wing_slat_span_ratio wing_thickness_to_chord_root wing_span fuselage_avg_diameter wing_center_chord : ℝ)
    (hl : 0 < wing_taper_ratio)
    (ht : 0 < wing_thickness_to_chord_root)
    (hc : 0 < wing_center_chord)
    (hd : 0 < fuselage_avg_diameter - (wing_thickness_to_chord_root * wing_center_chord))
    (hb : 0 < wing_span)
    (hs : 0 < wing_slat_chord_ratio)
    (ha : 0 < wing_area)
    (hr : 0 < wing_slat_span_ratio)
    (h8 : 0 < 2 - ((1 - wing_taper_ratio) * ((99 / 100) + (((2 * (sqrt ((wing_thickness_to_chord_root * wing_center_chord) * (fuselage_avg_diameter - (wing_thickness_to_chord_root * wing_center_chord))))) + (2 / 5)) / wing_span)))) :
    HasDerivAt (fun y => out_slat_mass wing_area wing_slat_chord_ratio wing_taper_ratio wing_slat_span_ratio wing_thickness_to_chord_root wing_span fuselage_avg_diameter y)
      (J_slat_mass__wing_center_chord wing_area wing_slat_chord_ratio wing_taper_ratio wing_slat_span_ratio wing_thickness_to_chord_root wing_span fuselage_avg_diameter wing_center_chord) wing_center_chord := by
  have hu : 0 < (wing_thickness_to_chord_root * wing_center_chord) * (fuselage_avg_diameter - wing_thickness_to_chord_root * wing_center_chord) := mul_pos (mul_pos ht hc) hd
  have hk : 0 < sle wing_area wing_slat_chord_ratio wing_taper_ratio wing_slat_span_ratio wing_thickness_to_chord_root wing_span fuselage_avg_diameter wing_center_chord := by
    unfold sle body_to_span_ratio
    have := mul_pos (mul_pos (div_pos (mul_pos hs ha) (show 0 < 1 + wing_taper_ratio by linarith)) hr) h8
    exact this
  refine deriv_as (slat_pow (sle_chain (btsr_cc wing_thickness_to_chord_root wing_span fuselage_avg_diameter wing_center_chord hu) wing_slat_chord_ratio wing_area wing_taper_ratio wing_slat_span_ratio) hk) (fun _ => rfl) ?_
  simp only [J_slat_mass__wing_center_chord, sle_2, body_to_span_ratio_2, u1, dsle_dbtsr, dbtsr_dcc]
  ring

/-- the declared derivative of `slat_mass` by `wing_thickness_to_chord_root` is right,
aviary/subsystems/mass/gasp_based/fixed.py:1353-2146 -/
theorem slat_wing_thickness_to_chord_root (wing_area wing_slat_chord_ratio wing_taper_ratio wing_slat_span_ratio wing_thickness_to_chord_root wing_span fuselage_avg_diameter wing_center_chord : ℝ)
    (hl : 0 < wing_taper_ratio)
    (ht : 0 < wing_thickness_to_chord_root)
    (hc : 0 < wing_center_chord)
    (hd : 0 < fuselage_avg_diameter - (wing_thickness_to_chord_root * wing_center_chord))
    (hb : 0 < wing_span)
    (hs : 0 < wing_slat_chord_ratio)
    (ha : 0 < wing_area)
    (hr : 0 < wing_slat_span_ratio)
    (h8 : 0 < 2 - ((1 - wing_taper_ratio) * ((99 / 100) + (((2 * (sqrt ((wing_thickness_to_chord_root * wing_center_chord) * (fuselage_avg_diameter - (wing_thickness_to_chord_root * wing_center_chord))))) + (2 / 5)) / wing_span)))) :
    HasDerivAt (fun y => out_slat_mass wing_area wing_slat_chord_ratio wing_taper_ratio wing_slat_span_ratio y wing_span fuselage_avg_diameter wing_center_chord)
      (J_slat_mass__wing_thickness_to_chord_root wing_area wing_slat_chord_ratio wing_taper_ratio wing_slat_span_ratio wing_thickness_to_chord_root wing_span fuselage_avg_diameter wing_center_chord) wing_thickness_to_chord_root := by
  have hu : 0 < (wing_thickness_to_chord_root * wing_center_chord) * (fuselage_avg_diameter - wing_thickness_to_chord_root * wing_center_chord) := mul_pos (mul_pos ht hc) hd
  have hk : 0 < sle wing_area wing_slat_chord_ratio wing_taper_ratio wing_slat_span_ratio wing_thickness_to_chord_root wing_span fuselage_avg_diameter wing_center_chord := by
    unfold sle body_to_span_ratio
    have := mul_pos (mul_pos (div_pos (mul_pos hs ha) (show 0 < 1 + wing_taper_ratio by linarith)) hr) h8
    exact this
  refine deriv_as (slat_pow (sle_chain (btsr_tc wing_thickness_to_chord_root wing_span fuselage_avg_diameter wing_center_chord hu) wing_slat_chord_ratio wing_area wing_taper_ratio wing_slat_span_ratio) hk) (fun _ => rfl) ?_
  simp only [J_slat_mass__wing_thickness_to_chord_root, sle_2, body_to_span_ratio_2, u1, dsle_dbtsr, dbtsr_dtcrr]
  ring

/-- the declared derivative of `wing_high_lift_mass` by `fuselage_avg_diameter` is right,
aviary/subsystems/mass/gasp_based/fixed.py:1353-2146 -/
theorem all_fuselage_avg_diameter (wing_num_flap_segments sea_level_density wing_high_lift_mass_coefficient wing_area wing_slat_chord_ratio wing_flap_chord_ratio wing_taper_ratio wing_flap_span_ratio wing_slat_span_ratio design_wing_loading wing_thickness_to_chord_root wing_span fuselage_avg_diameter wing_center_chord landing_lift_coefficient_max : ℝ)
    (hl : 0 < wing_taper_ratio)
    (ht : 0 < wing_thickness_to_chord_root)
    (hc : 0 < wing_center_chord)
    (hd : 0 < fuselage_avg_diameter - (wing_thickness_to_chord_root * wing_center_chord))
    (hb : 0 < wing_span)
    (hs : 0 < wing_slat_chord_ratio)
    (ha : 0 < wing_area)
    (hr : 0 < wing_slat_span_ratio)
    (h8 : 0 < 2 - ((1 - wing_taper_ratio) * ((99 / 100) + (((2 * (sqrt ((wing_thickness_to_chord_root * wing_center_chord) * (fuselage_avg_diameter - (wing_thickness_to_chord_root * wing_center_chord))))) + (2 / 5)) / wing_span))))
    (hq : 0 < sea_level_density)
    (hm : 0 < landing_lift_coefficient_max)
    (hg : 0 < design_wing_loading)
    (hn : 0 < wing_num_flap_segments) :
    HasDerivAt (fun y => out_wing_high_lift_mass wing_num_flap_segments sea_level_density wing_high_lift_mass_coefficient wing_area wing_slat_chord_ratio wing_flap_chord_ratio wing_taper_ratio wing_flap_span_ratio wing_slat_span_ratio design_wing_loading wing_thickness_to_chord_root wing_span y wing_center_chord landing_lift_coefficient_max)
      (J_wing_high_lift_mass__fuselage_avg_diameter wing_num_flap_segments sea_level_density wing_high_lift_mass_coefficient wing_area wing_slat_chord_ratio wing_flap_chord_ratio wing_taper_ratio wing_slat_span_ratio design_wing_loading wing_thickness_to_chord_root wing_span fuselage_avg_diameter wing_center_chord landing_lift_coefficient_max) fuselage_avg_diameter := by
  have hu : 0 < (wing_thickness_to_chord_root * wing_center_chord) * (fuselage_avg_diameter - wing_thickness_to_chord_root * wing_center_chord) := mul_pos (mul_pos ht hc) hd
  have h1 : HasDerivAt (fun y => out_flap_mass wing_num_flap_segments sea_level_density wing_high_lift_mass_coefficient wing_area wing_flap_chord_ratio wing_taper_ratio wing_flap_span_ratio design_wing_loading wing_thickness_to_chord_root wing_span y wing_center_chord landing_lift_coefficient_max) (J_flap_mass__fuselage_avg_diameter wing_num_flap_segments sea_level_density wing_high_lift_mass_coefficient wing_area wing_flap_chord_ratio wing_taper_ratio design_wing_loading wing_thickness_to_chord_root wing_span fuselage_avg_diameter wing_center_chord landing_lift_coefficient_max) fuselage_avg_diameter := by
    apply d_flap_mass__fuselage_avg_diameter <;> assumption
  have h2 : HasDerivAt (fun y => out_slat_mass wing_area wing_slat_chord_ratio wing_taper_ratio wing_slat_span_ratio wing_thickness_to_chord_root wing_span y wing_center_chord) (J_slat_mass__fuselage_avg_diameter wing_area wing_slat_chord_ratio wing_taper_ratio wing_slat_span_ratio wing_thickness_to_chord_root wing_span fuselage_avg_diameter wing_center_chord) fuselage_avg_diameter := by
    apply slat_fuselage_avg_diameter <;> assumption
  exact deriv_as (h1.add h2) (fun _ => rfl) rfl

/-- the declared derivative of `wing_high_lift_mass` by `wing_center_chord` is right,
aviary/subsystems/mass/gasp_based/fixed.py:1353-2146 -/
theorem all_wing_center_chord (wing_num_flap_segments sea_level_density wing_high_lift_mass_coefficient wing_area wing_slat_chord_ratio wing_flap_chord_ratio wing_taper_ratio wing_flap_span_ratio wing_slat_span_ratio design_wing_loading wing_thickness_to_chord_root wing_span fuselage_avg_diameter wing_center_chord landing_lift_coefficient_max : ℝ)
    (hl : 0 < wing_taper_ratio)
    (ht : 0 < wing_thickness_to_chord_root)
    (hc : 0 < wing_center_chord)
    (hd : 0 < fuselage_avg_diameter - (wing_thickness_to_chord_root * wing_center_chord))
    (hb : 0 < wing_span)
    (hs : 0 < wing_slat_chord_ratio)
    (ha : 0 < wing_area)
    (hr : 0 < wing_slat_span_ratio)
    (h8 : 0 < 2 - ((1 - wing_taper_ratio) * ((99 / 100) + (((2 * (sqrt ((wing_thickness_to_chord_root * wing_center_chord) * (fuselage_avg_diameter - (wing_thickness_to_chord_root * wing_center_chord))))) + (2 / 5)) / wing_span))))
    (hq : 0 < sea_level_density)
    (hm : 0 < landing_lift_coefficient_max)
    (hg : 0 < design_wing_loading)
    (hn : 0 < wing_num_flap_segments) :
    HasDerivAt (fun y => out_wing_high_lift_mass wing_num_flap_segments sea_level_density wing_high_lift_mass_coefficient wing_area wing_slat_chord_ratio wing_flap_chord_ratio wing_taper_ratio wing_flap_span_ratio wing_slat_span_ratio design_wing_loading wing_thickness_to_chord_root wing_span fuselage_avg_diameter y landing_lift_coefficient_max)
      (J_wing_high_lift_mass__wing_center_chord wing_num_flap_segments sea_level_density wing_high_lift_mass_coefficient wing_area wing_slat_chord_ratio wing_flap_chord_ratio wing_taper_ratio wing_slat_span_ratio design_wing_loading wing_thickness_to_chord_root wing_span fuselage_avg_diameter wing_center_chord landing_lift_coefficient_max) wing_center_chord := by
  have hu : 0 < (wing_thickness_to_chord_root * wing_center_chord) * (fuselage_avg_diameter - wing_thickness_to_chord_root * wing_center_chord) := mul_pos (mul_pos ht hc) hd
  have h1 : HasDerivAt (fun y => out_flap_mass wing_num_flap_segments sea_level_density wing_high_lift_mass_coefficient wing_area wing_flap_chord_ratio wing_taper_ratio wing_flap_span_ratio design_wing_loading wing_thickness_to_chord_root wing_span fuselage_avg_diameter y landing_lift_coefficient_max) (J_flap_mass__wing_center_chord wing_num_flap_segments sea_level_density wing_high_lift_mass_coefficient wing_area wing_flap_chord_ratio wing_taper_ratio design_wing_loading wing_thickness_to_chord_root wing_span fuselage_avg_diameter wing_center_chord landing_lift_coefficient_max) wing_center_chord := by
    apply d_flap_mass__wing_center_chord <;> assumption
  have h2 : HasDerivAt (fun y => out_slat_mass wing_area wing_slat_chord_ratio wing_taper_ratio wing_slat_span_ratio wing_thickness_to_chord_root wing_span fuselage_avg_diameter y) (J_slat_mass__wing_center_chord wing_area wing_slat_chord_ratio wing_taper_ratio wing_slat_span_ratio wing_thickness_to_chord_root wing_span fuselage_avg_diameter wing_center_chord) wing_center_chord := by
    apply slat_wing_center_chord <;> assumption
  exact deriv_as (h1.add h2) (fun _ => rfl) rfl

/-- the declared derivative of `wing_high_lift_mass` by `wing_thickness_to_chord_root` is right,
aviary/subsystems/mass/gasp_based/fixed.py:1353-2146 -/
theorem all_wing_thickness_to_chord_root (wing_num_flap_segments sea_level_density wing_high_lift_mass_coefficient wing_area wing_slat_chord_ratio wing_flap_chord_ratio wing_taper_ratio wing_flap_span_ratio wing_slat_span_ratio design_wing_loading wing_thickness_to_chord_root wing_span fuselage_avg_diameter wing_center_chord landing_lift_coefficient_max : ℝ)
    (hl : 0 < wing_taper_ratio)
    (ht : 0 < wing_thickness_to_chord_root)
    (hc : 0 < wing_center_chord)
    (hd : 0 < fuselage_avg_diameter - (wing_thickness_to_chord_root * wing_center_chord))
    (hb : 0 < wing_span)
    (hs : 0 < wing_slat_chord_ratio)
    (ha : 0 < wing_area)
    (hr : 0 < wing_slat_span_ratio)
    (h8 : 0 < 2 - ((1 - wing_taper_ratio) * ((99 / 100) + (((2 * (sqrt ((wing_thickness_to_chord_root * wing_center_chord) * (fuselage_avg_diameter - (wing_thickness_to_chord_root * wing_center_chord))))) + (2 / 5)) / wing_span))))
    (hq : 0 < sea_level_density)
    (hm : 0 < landing_lift_coefficient_max)
    (hg : 0 < design_wing_loading)
    (hn : 0 < wing_num_flap_segments) :
    HasDerivAt (fun y => out_wing_high_lift_mass wing_num_flap_segments sea_level_density wing_high_lift_mass_coefficient wing_area wing_slat_chord_ratio wing_flap_chord_ratio wing_taper_ratio wing_flap_span_ratio wing_slat_span_ratio design_wing_loading y wing_span fuselage_avg_diameter wing_center_chord landing_lift_coefficient_max)
      (J_wing_high_lift_mass__wing_thickness_to_chord_root wing_num_flap_segments sea_level_density wing_high_lift_mass_coefficient wing_area wing_slat_chord_ratio wing_flap_chord_ratio wing_taper_ratio wing_slat_span_ratio design_wing_loading wing_thickness_to_chord_root wing_span fuselage_avg_diameter wing_center_chord landing_lift_coefficient_max) wing_thickness_to_chord_root := by
  have hu : 0 < (wing_thickness_to_chord_root * wing_center_chord) * (fuselage_avg_diameter - wing_thickness_to_chord_root * wing_center_chord) := mul_pos (mul_pos ht hc) hd
  have h1 : HasDerivAt (fun y => out_flap_mass wing_num_flap_segments sea_level_density wing_high_lift_mass_coefficient wing_area wing_flap_chord_ratio wing_taper_ratio wing_flap_span_ratio design_wing_loading y wing_span fuselage_avg_diameter wing_center_chord landing_lift_coefficient_max) (J_flap_mass__wing_thickness_to_chord_root wing_num_flap_segments sea_level_density wing_high_lift_mass_coefficient wing_area wing_flap_chord_ratio wing_taper_ratio design_wing_loading wing_thickness_to_chord_root wing_span fuselage_avg_diameter wing_center_chord landing_lift_coefficient_max) wing_thickness_to_chord_root := by
    apply d_flap_mass__wing_thickness_to_chord_root <;> assumption
  have h2 : HasDerivAt (fun y => out_slat_mass wing_area wing_slat_chord_ratio wing_taper_ratio wing_slat_span_ratio y wing_span fuselage_avg_diameter wing_center_chord) (J_slat_mass__wing_thickness_to_chord_root wing_area wing_slat_chord_ratio wing_taper_ratio wing_slat_span_ratio wing_thickness_to_chord_root wing_span fuselage_avg_diameter wing_center_chord) wing_thickness_to_chord_root := by
    apply slat_wing_thickness_to_chord_root <;> assumption
  exact deriv_as (h1.add h2) (fun _ => rfl) rfl

end singleslotted

namespace doubleslotted
open Verif.Comp.MassGaspBasedFixed.HighLiftMass_doubleslotted

/-- the declared derivative of `slat_mass` by `fuselage_avg_diameter` is right,
aviary/subsystems/mass/gasp_based/fixed.py:1353-2146 -/
theorem slat_fuselage_avg_diameter (wing_area wing_slat_chord_ratio wing_taper_ratio wing_slat_span_ratio wing_thickness_to_chord_root wing_span fuselage_avg_diameter wing_center_chord : ℝ)
    (hl : 0 < wing_taper_ratio)
    (ht : 0 < wing_thickness_to_chord_root)
    (hc : 0 < wing_center_chord)
    (hd : 0 < fuselage_avg_diameter - (wing_thickness_to_chord_root * wing_center_chord))
    (hb : 0 < wing_span)
    (hs : 0 < wing_slat_chord_ratio)
    (ha : 0 < wing_area)
    (hr : 0 < wing_slat_span_ratio)
    (h8 : 0 < 2 - ((1 - wing_taper_ratio) * ((99 / 100) + (((2 * (sqrt ((wing_thickness_to_chord_root * wing_center_chord) * (fuselage_avg_diameter - (wing_thickness_to_chord_root * wing_center_chord))))) + (2 / 5)) / wing_span)))) :
    HasDerivAt (fun y => out_slat_mass wing_area wing_slat_chord_ratio wing_taper_ratio wing_slat_span_ratio wing_thickness_to_chord_root wing_span y wing_center_chord)
      (J_slat_mass__fuselage_avg_diameter wing_area wing_slat_chord_ratio wing_taper_ratio wing_slat_span_ratio wing_thickness_to_chord_root wing_span fuselage_avg_diameter wing_center_chord) fuselage_avg_diameter := by
  have hu : 0 < (wing_thickness_to_chord_root * wing_center_chord) * (fuselage_avg_diameter - wing_thickness_to_chord_root * wing_center_chord) := mul_pos (mul_pos ht hc) hd
  have hk : 0 < sle wing_area wing_slat_chord_ratio wing_taper_ratio wing_slat_span_ratio wing_thickness_to_chord_root wing_span fuselage_avg_diameter wing_center_chord := by
    unfold sle body_to_span_ratio
    have := mul_pos (mul_pos (div_pos (mul_pos hs ha) (show 0 < 1 + wing_taper_ratio by linarith)) hr) h8
    exact this
  refine deriv_as (slat_pow (sle_chain (btsr_cw wing_thickness_to_chord_root wing_span fuselage_avg_diameter wing_center_chord hu) wing_slat_chord_ratio wing_area wing_taper_ratio wing_slat_span_ratio) hk) (fun _ => rfl) ?_
  simp only [J_slat_mass__fuselage_avg_diameter, sle_2, body_to_span_ratio_2, u1, dsle_dbtsr, dbtsr_dcw]
  ring

/-- the declared derivative of `slat_mass` by `wing_center_chord` is right,
aviary/subsystems/mass/gasp_based/fixed.py:1353-2146 -/
theorem slat_wing_center_chord (wing_area wing_slat_chord_ratio wing_taper_ratio wing_slat_span_ratio wing_thickness_to_chord_root wing_span fuselage_avg_diameter wing_center_chord : ℝ)
    (hl : 0 < wing_taper_ratio)
    (ht : 0 < wing_thickness_to_chord_root)
    (hc : 0 < wing_center_chord)
    (hd : 0 < fuselage_avg_diameter - (wing_thickness_to_chord_root * wing_center_chord))
    (hb : 0 < wing_span)
    (hs : 0 < wing_slat_chord_ratio)
    (ha : 0 < wing_area)
    (hr : 0 < wing_slat_span_ratio)
    (h8 : 0 < 2 - ((1 - wing_taper_ratio) * ((99 / 100) + (((2 * (sqrt ((wing_thickness_to_chord_root * wing_center_chord) * (fuselage_avg_diameter - (wing_thickness_to_chord_root * wing_center_chord))))) + (2 / 5)) / wing_span)))) :
    HasDerivAt (fun y => out_slat_mass wing_area wing_slat_chord_ratio wing_taper_ratio wing_slat_span_ratio wing_thickness_to_chord_root wing_span fuselage_avg_diameter y)
      (J_slat_mass__wing_center_chord wing_area wing_slat_chord_ratio wing_taper_ratio wing_slat_span_ratio wing_thickness_to_chord_root wing_span fuselage_avg_diameter wing_center_chord) wing_center_chord := by
  have hu : 0 < (wing_thickness_to_chord_root * wing_center_chord) * (fuselage_avg_diameter - wing_thickness_to_chord_root * wing_center_chord) := mul_pos (mul_pos ht hc) hd
  have hk : 0 < sle wing_area wing_slat_chord_ratio wing_taper_ratio wing_slat_span_ratio wing_thickness_to_chord_root wing_span fuselage_avg_diameter wing_center_chord := by
    unfold sle body_to_span_ratio
    have := mul_pos (mul_pos (div_pos (mul_pos hs ha) (show 0 < 1 + wing_taper_ratio by linarith)) hr) h8
    exact this
  refine deriv_as (slat_pow (sle_chain (btsr_cc wing_thickness_to_chord_root wing_span fuselage_avg_diameter wing_center_chord hu) wing_slat_chord_ratio wing_area wing_taper_ratio wing_slat_span_ratio) hk) (fun _ => rfl) ?_
  simp only [J_slat_mass__wing_center_chord, sle_2, body_to_span_ratio_2, u1, dsle_dbtsr, dbtsr_dcc]
  ring

/-- the declared derivative of `slat_mass` by `wing_thickness_to_chord_root` is right,
aviary/subsystems/mass/gasp_based/fixed.py:1353-2146 -/
theorem slat_wing_thickness_to_chord_root (wing_area wing_slat_chord_ratio wing_taper_ratio wing_slat_span_ratio wing_thickness_to_chord_root wing_span fuselage_avg_diameter wing_center_chord : ℝ)
    (hl : 0 < wing_taper_ratio)
    (ht : 0 < wing_thickness_to_chord_root)
    (hc : 0 < wing_center_chord)
    (hd : 0 < fuselage_avg_diameter - (wing_thickness_to_chord_root * wing_center_chord))
    (hb : 0 < wing_span)
    (hs : 0 < wing_slat_chord_ratio)
    (ha : 0 < wing_area)
    (hr : 0 < wing_slat_span_ratio)
    (h8 : 0 < 2 - ((1 - wing_taper_ratio) * ((99 / 100) + (((2 * (sqrt ((wing_thickness_to_chord_root * wing_center_chord) * (fuselage_avg_diameter - (wing_thickness_to_chord_root * wing_center_chord))))) + (2 / 5)) / wing_span)))) :
    HasDerivAt (fun y => out_slat_mass wing_area wing_slat_chord_ratio wing_taper_ratio wing_slat_span_ratio y wing_span fuselage_avg_diameter wing_center_chord)
      (J_slat_mass__wing_thickness_to_chord_root wing_area wing_slat_chord_ratio wing_taper_ratio wing_slat_span_ratio wing_thickness_to_chord_root wing_span fuselage_avg_diameter wing_center_chord) wing_thickness_to_chord_root := by
  have hu : 0 < (wing_thickness_to_chord_root * wing_center_chord) * (fuselage_avg_diameter - wing_thickness_to_chord_root * wing_center_chord) := mul_pos (mul_pos ht hc) hd
  have hk : 0 < sle wing_area wing_slat_chord_ratio wing_taper_ratio wing_slat_span_ratio wing_thickness_to_chord_root wing_span fuselage_avg_diameter wing_center_chord := by
    unfold sle body_to_span_ratio
    have := mul_pos (mul_pos (div_pos (mul_pos hs ha) (show 0 < 1 + wing_taper_ratio by linarith)) hr) h8
    exact this
  refine deriv_as (slat_pow (sle_chain (btsr_tc wing_thickness_to_chord_root wing_span fuselage_avg_diameter wing_center_chord hu) wing_slat_chord_ratio wing_area wing_taper_ratio wing_slat_span_ratio) hk) (fun _ => rfl) ?_
  simp only [J_slat_mass__wing_thickness_to_chord_root, sle_2, body_to_span_ratio_2, u1, dsle_dbtsr, dbtsr_dtcrr]
  ring

/-- the declared derivative of `wing_high_lift_mass` by `fuselage_avg_diameter` is right,
aviary/subsystems/mass/gasp_based/fixed.py:1353-2146 -/
theorem all_fuselage_avg_diameter (wing_num_flap_segments sea_level_density wing_high_lift_mass_coefficient wing_area wing_slat_chord_ratio wing_flap_chord_ratio wing_taper_ratio wing_flap_span_ratio wing_slat_span_ratio design_wing_loading wing_thickness_to_chord_root wing_span fuselage_avg_diameter wing_center_chord landing_lift_coefficient_max : ℝ)
    (hl : 0 < wing_taper_ratio)
    (ht : 0 < wing_thickness_to_chord_root)
    (hc : 0 < wing_center_chord)
    (hd : 0 < fuselage_avg_diameter - (wing_thickness_to_chord_root * wing_center_chord))
    (hb : 0 < wing_span)
    (hs : 0 < wing_slat_chord_ratio)
    (ha : 0 < wing_area)
    (hr : 0 < wing_slat_span_ratio)
    (h8 : 0 < 2 - ((1 - wing_taper_ratio) * ((99 / 100) + (((2 * (sqrt ((wing_thickness_to_chord_root * wing_center_chord) * (fuselage_avg_diameter - (wing_thickness_to_chord_root * wing_center_chord))))) + (2 / 5)) / wing_span))))
    (hq : 0 < sea_level_density)
    (hm : 0 < landing_lift_coefficient_max)
    (hg : 0 < design_wing_loading)
    (hn : 0 < wing_num_flap_segments) :
    HasDerivAt (fun y => out_wing_high_lift_mass wing_num_flap_segments sea_level_density wing_high_lift_mass_coefficient wing_area wing_slat_chord_ratio wing_flap_chord_ratio wing_taper_ratio wing_flap_span_ratio wing_slat_span_ratio design_wing_loading wing_thickness_to_chord_root wing_span y wing_center_chord landing_lift_coefficient_max)
      (J_wing_high_lift_mass__fuselage_avg_diameter wing_num_flap_segments sea_level_density wing_high_lift_mass_coefficient wing_area wing_slat_chord_ratio wing_flap_chord_ratio wing_taper_ratio wing_slat_span_ratio design_wing_loading wing_thickness_to_chord_root wing_span fuselage_avg_diameter wing_center_chord landing_lift_coefficient_max) fuselage_avg_diameter := by
  have hu : 0 < (wing_thickness_to_chord_root * wing_center_chord) * (fuselage_avg_diameter - wing_thickness_to_chord_root * wing_center_chord) := mul_pos (mul_pos ht hc) hd
  have h1 : HasDerivAt (fun y => out_flap_mass wing_num_flap_segments sea_level_density wing_high_lift_mass_coefficient wing_area wing_flap_chord_ratio wing_taper_ratio wing_flap_span_ratio design_wing_loading wing_thickness_to_chord_root wing_span y wing_center_chord landing_lift_coefficient_max) (J_flap_mass__fuselage_avg_diameter wing_num_flap_segments sea_level_density wing_high_lift_mass_coefficient wing_area wing_flap_chord_ratio wing_taper_ratio design_wing_loading wing_thickness_to_chord_root wing_span fuselage_avg_diameter wing_center_chord landing_lift_coefficient_max) fuselage_avg_diameter := by
    apply d_flap_mass__fuselage_avg_diameter <;> assumption
  have h2 : HasDerivAt (fun y => out_slat_mass wing_area wing_slat_chord_ratio wing_taper_ratio wing_slat_span_ratio wing_thickness_to_chord_root wing_span y wing_center_chord) (J_slat_mass__fuselage_avg_diameter wing_area wing_slat_chord_ratio wing_taper_ratio wing_slat_span_ratio wing_thickness_to_chord_root wing_span fuselage_avg_diameter wing_center_chord) fuselage_avg_diameter := by
    apply slat_fuselage_avg_diameter <;> assumption
  exact deriv_as (h1.add h2) (fun _ => rfl) rfl

/-- the declared derivative of `wing_high_lift_mass` by `wing_center_chord` is right,
aviary/subsystems/mass/gasp_based/fixed.py:1353-2146 -/
theorem all_wing_center_chord (wing_num_flap_segments sea_level_density wing_high_lift_mass_coefficient wing_area wing_slat_chord_ratio wing_flap_chord_ratio wing_taper_ratio wing_flap_span_ratio wing_slat_span_ratio design_wing_loading wing_thickness_to_chord_root wing_span fuselage_avg_diameter wing_center_chord landing_lift_coefficient_max : ℝ)
    (hl : 0 < wing_taper_ratio)
    (ht : 0 < wing_thickness_to_chord_root)
    (hc : 0 < wing_center_chord)
    (hd : 0 < fuselage_avg_diameter - (wing_thickness_to_chord_root * wing_center_chord))
    (hb : 0 < wing_span)
    (hs : 0 < wing_slat_chord_ratio)
    (ha : 0 < wing_area)
    (hr : 0 < wing_slat_span_ratio)
    (h8 : 0 < 2 - ((1 - wing_taper_ratio) * ((99 / 100) + (((2 * (sqrt ((wing_thickness_to_chord_root * wing_center_chord) * (fuselage_avg_diameter - (wing_thickness_to_chord_root * wing_center_chord))))) + (2 / 5)) / wing_span))))
    (hq : 0 < sea_level_density)
    (hm : 0 < landing_lift_coefficient_max)
    (hg : 0 < design_wing_loading)
    (hn : 0 < wing_num_flap_segments) :
    HasDerivAt (fun y => out_wing_high_lift_mass wing_num_flap_segments sea_level_density wing_high_lift_mass_coefficient wing_area wing_slat_chord_ratio wing_flap_chord_ratio wing_taper_ratio wing_flap_span_ratio wing_slat_span_ratio design_wing_loading wing_thickness_to_chord_root wing_span fuselage_avg_diameter y landing_lift_coefficient_max)
      (J_wing_high_lift_mass__wing_center_chord wing_num_flap_segments sea_level_density wing_high_lift_mass_coefficient wing_area wing_slat_chord_ratio wing_flap_chord_ratio wing_taper_ratio wing_slat_span_ratio design_wing_loading wing_thickness_to_chord_root wing_span fuselage_avg_diameter wing_center_chord landing_lift_coefficient_max) wing_center_chord := by
  have hu : 0 < (wing_thickness_to_chord_root * wing_center_chord) * (fuselage_avg_diameter - wing_thickness_to_chord_root * wing_center_chord) := mul_pos (mul_pos ht hc) hd
  have h1 : HasDerivAt (fun y => out_flap_mass wing_num_flap_segments sea_level_density wing_high_lift_mass_coefficient wing_area wing_flap_chord_ratio wing_taper_ratio wing_flap_span_ratio design_wing_loading wing_thickness_to_chord_root wing_span fuselage_avg_diameter y landing_lift_coefficient_max) (J_flap_mass__wing_center_chord wing_num_flap_segments sea_level_density wing_high_lift_mass_coefficient wing_area wing_flap_chord_ratio wing_taper_ratio design_wing_loading wing_thickness_to_chord_root wing_span fuselage_avg_diameter wing_center_chord landing_lift_coefficient_max) wing_center_chord := by
    apply d_flap_mass__wing_center_chord <;> assumption
  have h2 : HasDerivAt (fun y => out_slat_mass wing_area wing_slat_chord_ratio wing_taper_ratio wing_slat_span_ratio wing_thickness_to_chord_root wing_span fuselage_avg_diameter y) (J_slat_mass__wing_center_chord wing_area wing_slat_chord_ratio wing_taper_ratio wing_slat_span_ratio wing_thickness_to_chord_root wing_span fuselage_avg_diameter wing_center_chord) wing_center_chord := by
    apply slat_wing_center_chord <;> assumption
  exact deriv_as (h1.add h2) (fun _ => rfl) rfl

/-- the declared derivative of `wing_high_lift_mass` by `wing_thickness_to_chord_root` is right,
aviary/subsystems/mass/gasp_based/fixed.py:1353-2146 -/
theorem all_wing_thickness_to_chord_root (wing_num_flap_segments sea_level_density wing_high_lift_mass_coefficient wing_area wing_slat_chord_ratio wing_flap_chord_ratio wing_taper_ratio wing_flap_span_ratio wing_slat_span_ratio design_wing_loading wing_thickness_to_chord_root wing_span fuselage_avg_diameter wing_center_chord landing_lift_coefficient_max : ℝ)
    (hl : 0 < wing_taper_ratio)
    (ht : 0 < wing_thickness_to_chord_root)
    (hc : 0 < wing_center_chord)
    (hd : 0 < fuselage_avg_diameter - (wing_thickness_to_chord_root * wing_center_chord))
    (hb : 0 < wing_span)
    (hs : 0 < wing_slat_chord_ratio)
    (ha : 0 < wing_area)
    (hr : 0 < wing_slat_span_ratio)
    (h8 : 0 < 2 - ((1 - wing_taper_ratio) * ((99 / 100) + (((2 * (sqrt ((wing_thickness_to_chord_root * wing_center_chord) * (fuselage_avg_diameter - (wing_thickness_to_chord_root * wing_center_chord))))) + (2 / 5)) / wing_span))))
    (hq : 0 < sea_level_density)
    (hm : 0 < landing_lift_coefficient_max)
    (hg : 0 < design_wing_loading)
    (hn : 0 < wing_num_flap_segments) :
    HasDerivAt (fun y => out_wing_high_lift_mass wing_num_flap_segments sea_level_density wing_high_lift_mass_coefficient wing_area wing_slat_chord_ratio wing_flap_chord_ratio wing_taper_ratio wing_flap_span_ratio wing_slat_span_ratio design_wing_loading y wing_span fuselage_avg_diameter wing_center_chord landing_lift_coefficient_max)
      (J_wing_high_lift_mass__wing_thickness_to_chord_root wing_num_flap_segments sea_level_density wing_high_lift_mass_coefficient wing_area wing_slat_chord_ratio wing_flap_chord_ratio wing_taper_ratio wing_slat_span_ratio design_wing_loading wing_thickness_to_chord_root wing_span fuselage_avg_diameter wing_center_chord landing_lift_coefficient_max) wing_thickness_to_chord_root := by
  have hu : 0 < (wing_thickness_to_chord_root * wing_center_chord) * (fuselage_avg_diameter - wing_thickness_to_chord_root * wing_center_chord) := mul_pos (mul_pos ht hc) hd
  have h1 : HasDerivAt (fun y => out_flap_mass wing_num_flap_segments sea_level_density wing_high_lift_mass_coefficient wing_area wing_flap_chord_ratio wing_taper_ratio wing_flap_span_ratio design_wing_loading y wing_span fuselage_avg_diameter wing_center_chord landing_lift_coefficient_max) (J_flap_mass__wing_thickness_to_chord_root wing_num_flap_segments sea_level_density wing_high_lift_mass_coefficient wing_area wing_flap_chord_ratio wing_taper_ratio design_wing_loading wing_thickness_to_chord_root wing_span fuselage_avg_diameter wing_center_chord landing_lift_coefficient_max) wing_thickness_to_chord_root := by
    apply d_flap_mass__wing_thickness_to_chord_root <;> assumption
  have h2 : HasDerivAt (fun y => out_slat_mass wing_area wing_slat_chord_ratio wing_taper_ratio wing_slat_span_ratio y wing_span fuselage_avg_diameter wing_center_chord) (J_slat_mass__wing_thickness_to_chord_root wing_area wing_slat_chord_ratio wing_taper_ratio wing_slat_span_ratio wing_thickness_to_chord_root wing_span fuselage_avg_diameter wing_center_chord) wing_thickness_to_chord_root := by
    apply slat_wing_thickness_to_chord_root <;> assumption
  exact deriv_as (h1.add h2) (fun _ => rfl) rfl

end doubleslotted

namespace tripleslotted
open Verif.Comp.MassGaspBasedFixed.HighLiftMass_tripleslotted

/-- the declared derivative of `slat_mass` by `fuselage_avg_diameter` is right,
aviary/subsystems/mass/gasp_based/fixed.py:1353-2146 -/
theorem slat_fuselage_avg_diameter (wing_area wing_slat_chord_ratio wing_taper_ratio wing_slat_span_ratio wing_thickness_to_chord_root wing_span fuselage_avg_diameter wing_center_chord : ℝ)
    (hl : 0 < wing_taper_ratio)
    (ht : 0 < wing_thickness_to_chord_root)
    (hc : 0 < wing_center_chord)
    (hd : 0 < fuselage_avg_diameter - (wing_thickness_to_chord_root * wing_center_chord))
    (hb : 0 < wing_span)
    (hs : 0 < wing_slat_chord_ratio)
    (ha : 0 < wing_area)
    (hr : 0 < wing_slat_span_ratio)
    (h8 : 0 < 2 - ((1 - wing_taper_ratio) * ((99 / 100) + (((2 * (sqrt ((wing_thickness_to_chord_root * wing_center_chord) * (fuselage_avg_diameter - (wing_thickness_to_chord_root * wing_center_chord))))) + (2 / 5)) / wing_span)))) :
    HasDerivAt (fun y => out_slat_mass wing_area wing_slat_chord_ratio wing_taper_ratio wing_slat_span_ratio wing_thickness_to_chord_root wing_span y wing_center_chord)
      (J_slat_mass__fuselage_avg_diameter wing_area wing_slat_chord_ratio wing_taper_ratio wing_slat_span_ratio wing_thickness_to_chord_root wing_span fuselage_avg_diameter wing_center_chord) fuselage_avg_diameter := by
  have hu : 0 < (wing_thickness_to_chord_root * wing_center_chord) * (fuselage_avg_diameter - wing_thickness_to_chord_root * wing_center_chord) := mul_pos (mul_pos ht hc) hd
  have hk : 0 < sle wing_area wing_slat_chord_ratio wing_taper_ratio wing_slat_span_ratio wing_thickness_to_chord_root wing_span fuselage_avg_diameter wing_center_chord := by
    unfold sle body_to_span_ratio
    have := mul_pos (mul_pos (div_pos (mul_pos hs ha) (show 0 < 1 + wing_taper_ratio by linarith)) hr) h8
    exact this
  refine deriv_as (slat_pow (sle_chain (btsr_cw wing_thickness_to_chord_root wing_span fuselage_avg_diameter wing_center_chord hu) wing_slat_chord_ratio wing_area wing_taper_ratio wing_slat_span_ratio) hk) (fun _ => rfl) ?_
  simp only [J_slat_mass__fuselage_avg_diameter, sle_2, body_to_span_ratio_2, u1, dsle_dbtsr, dbtsr_dcw]
  ring

/-- the declared derivative of `slat_mass` by `wing_center_chord` is right,
aviary/subsystems/mass/gasp_based/fixed.py:1353-2146 -/
theorem slat_wing_center_chord (wing_area wing_slat_chord_ratio wing_taper_ratio wing_slat_span_ratio wing_thickness_to_chord_root wing_span fuselage_avg_diameter wing_center_chord : ℝ)
    (hl : 0 < wing_taper_ratio)
    (ht : 0 < wing_thickness_to_chord_root)
    (hc : 0 < wing_center_chord)
    (hd : 0 < fuselage_avg_diameter - (wing_thickness_to_chord_root * wing_center_chord))
    (hb : 0 < wing_span)
    (hs : 0 < wing_slat_chord_ratio)
    (ha : 0 < wing_area)
    (hr : 0 < wing_slat_span_ratio)
    (h8 : 0 < 2 - ((1 - wing_taper_ratio) * ((99 / 100) + (((2 * (sqrt ((wing_thickness_to_chord_root * wing_center_chord) * (fuselage_avg_diameter - (wing_thickness_to_chord_root * wing_center_chord))))) + (2 / 5)) / wing_span)))) :
    HasDerivAt (fun y => out_slat_mass wing_area wing_slat_chord_ratio wing_taper_ratio wing_slat_span_ratio wing_thickness_to_chord_root wing_span fuselage_avg_diameter y)
      (J_slat_mass__wing_center_chord wing_area wing_slat_chord_ratio wing_taper_ratio wing_slat_span_ratio wing_thickness_to_chord_root wing_span fuselage_avg_diameter wing_center_chord) wing_center_chord := by
  have hu : 0 < (wing_thickness_to_chord_root * wing_center_chord) * (fuselage_avg_diameter - wing_thickness_to_chord_root * wing_center_chord) := mul_pos (mul_pos ht hc) hd
  have hk : 0 < sle wing_area wing_slat_chord_ratio wing_taper_ratio wing_slat_span_ratio wing_thickness_to_chord_root wing_span fuselage_avg_diameter wing_center_chord := by
    unfold sle body_to_span_ratio
    have := mul_pos (mul_pos (div_pos (mul_pos hs ha) (show 0 < 1 + wing_taper_ratio by linarith)) hr) h8
    exact this
  refine deriv_as (slat_pow (sle_chain (btsr_cc wing_thickness_to_chord_root wing_span fuselage_avg_diameter wing_center_chord hu) wing_slat_chord_ratio wing_area wing_taper_ratio wing_slat_span_ratio) hk) (fun _ => rfl) ?_
  simp only [J_slat_mass__wing_center_chord, sle_2, body_to_span_ratio_2, u1, dsle_dbtsr, dbtsr_dcc]
  ring

/-- the declared derivative of `slat_mass` by `wing_thickness_to_chord_root` is right,
aviary/subsystems/mass/gasp_based/fixed.py:1353-2146 -/
theorem slat_wing_thickness_to_chord_root (wing_area wing_slat_chord_ratio wing_taper_ratio wing_slat_span_ratio wing_thickness_to_chord_root wing_span fuselage_avg_diameter wing_center_chord : ℝ)
    (hl : 0 < wing_taper_ratio)
    (ht : 0 < wing_thickness_to_chord_root)
    (hc : 0 < wing_center_chord)
    (hd : 0 < fuselage_avg_diameter - (wing_thickness_to_chord_root * wing_center_chord))
    (hb : 0 < wing_span)
    (hs : 0 < wing_slat_chord_ratio)
    (ha : 0 < wing_area)
    (hr : 0 < wing_slat_span_ratio)
    (h8 : 0 < 2 - ((1 - wing_taper_ratio) * ((99 / 100) + (((2 * (sqrt ((wing_thickness_to_chord_root * wing_center_chord) * (fuselage_avg_diameter - (wing_thickness_to_chord_root * wing_center_chord))))) + (2 / 5)) / wing_span)))) :
    HasDerivAt (fun y => out_slat_mass wing_area wing_slat_chord_ratio wing_taper_ratio wing_slat_span_ratio y wing_span fuselage_avg_diameter wing_center_chord)
      (J_slat_mass__wing_thickness_to_chord_root wing_area wing_slat_chord_ratio wing_taper_ratio wing_slat_span_ratio wing_thickness_to_chord_root wing_span fuselage_avg_diameter wing_center_chord) wing_thickness_to_chord_root := by
  have hu : 0 < (wing_thickness_to_chord_root * wing_center_chord) * (fuselage_avg_diameter - wing_thickness_to_chord_root * wing_center_chord) := mul_pos (mul_pos ht hc) hd
  have hk : 0 < sle wing_area wing_slat_chord_ratio wing_taper_ratio wing_slat_span_ratio wing_thickness_to_chord_root wing_span fuselage_avg_diameter wing_center_chord := by
    unfold sle body_to_span_ratio
    have := mul_pos (mul_pos (div_pos (mul_pos hs ha) (show 0 < 1 + wing_taper_ratio by linarith)) hr) h8
    exact this
  refine deriv_as (slat_pow (sle_chain (btsr_tc wing_thickness_to_chord_root wing_span fuselage_avg_diameter wing_center_chord hu) wing_slat_chord_ratio wing_area wing_taper_ratio wing_slat_span_ratio) hk) (fun _ => rfl) ?_
  simp only [J_slat_mass__wing_thickness_to_chord_root, sle_2, body_to_span_ratio_2, u1, dsle_dbtsr, dbtsr_dtcrr]
  ring

/-- the declared derivative of `wing_high_lift_mass` by `fuselage_avg_diameter` is right,
aviary/subsystems/mass/gasp_based/fixed.py:1353-2146 -/
theorem all_fuselage_avg_diameter (wing_num_flap_segments sea_level_density wing_high_lift_mass_coefficient wing_area wing_slat_chord_ratio wing_flap_chord_ratio wing_taper_ratio wing_flap_span_ratio wing_slat_span_ratio design_wing_loading wing_thickness_to_chord_root wing_span fuselage_avg_diameter wing_center_chord landing_lift_coefficient_max : ℝ)
    (hl : 0 < wing_taper_ratio)
    (ht : 0 < wing_thickness_to_chord_root)
    (hc : 0 < wing_center_chord)
    (hd : 0 < fuselage_avg_diameter - (wing_thickness_to_chord_root * wing_center_chord))
    (hb : 0 < wing_span)
    (hs : 0 < wing_slat_chord_ratio)
    (ha : 0 < wing_area)
    (hr : 0 < wing_slat_span_ratio)
    (h8 : 0 < 2 - ((1 - wing_taper_ratio) * ((99 / 100) + (((2 * (sqrt ((wing_thickness_to_chord_root * wing_center_chord) * (fuselage_avg_diameter - (wing_thickness_to_chord_root * wing_center_chord))))) + (2 / 5)) / wing_span))))
    (hq : 0 < sea_level_density)
    (hm : 0 < landing_lift_coefficient_max)
    (hg : 0 < design_wing_loading)
    (hn : 0 < wing_num_flap_segments) :
    HasDerivAt (fun y => out_wing_high_lift_mass wing_num_flap_segments sea_level_density wing_high_lift_mass_coefficient wing_area wing_slat_chord_ratio wing_flap_chord_ratio wing_taper_ratio wing_flap_span_ratio wing_slat_span_ratio design_wing_loading wing_thickness_to_chord_root wing_span y wing_center_chord landing_lift_coefficient_max)
      (J_wing_high_lift_mass__fuselage_avg_diameter wing_num_flap_segments sea_level_density wing_high_lift_mass_coefficient wing_area wing_slat_chord_ratio wing_flap_chord_ratio wing_taper_ratio wing_slat_span_ratio design_wing_loading wing_thickness_to_chord_root wing_span fuselage_avg_diameter wing_center_chord landing_lift_coefficient_max) fuselage_avg_diameter := by
  have hu : 0 < (wing_thickness_to_chord_root * wing_center_chord) * (fuselage_avg_diameter - wing_thickness_to_chord_root * wing_center_chord) := mul_pos (mul_pos ht hc) hd
  have h1 : HasDerivAt (fun y => out_flap_mass wing_num_flap_segments sea_level_density wing_high_lift_mass_coefficient wing_area wing_flap_chord_ratio wing_taper_ratio wing_flap_span_ratio design_wing_loading wing_thickness_to_chord_root wing_span y wing_center_chord landing_lift_coefficient_max) (J_flap_mass__fuselage_avg_diameter wing_num_flap_segments sea_level_density wing_high_lift_mass_coefficient wing_area wing_flap_chord_ratio wing_taper_ratio design_wing_loading wing_thickness_to_chord_root wing_span fuselage_avg_diameter wing_center_chord landing_lift_coefficient_max) fuselage_avg_diameter := by
    apply d_flap_mass__fuselage_avg_diameter <;> assumption
  have h2 : HasDerivAt (fun y => out_slat_mass wing_area wing_slat_chord_ratio wing_taper_ratio wing_slat_span_ratio wing_thickness_to_chord_root wing_span y wing_center_chord) (J_slat_mass__fuselage_avg_diameter wing_area wing_slat_chord_ratio wing_taper_ratio wing_slat_span_ratio wing_thickness_to_chord_root wing_span fuselage_avg_diameter wing_center_chord) fuselage_avg_diameter := by
    apply slat_fuselage_avg_diameter <;> assumption
  exact deriv_as (h1.add h2) (fun _ => rfl) rfl

/-- the declared derivative of `wing_high_lift_mass` by `wing_center_chord` is right,
aviary/subsystems/mass/gasp_based/fixed.py:1353-2146 -/
theorem all_wing_center_chord (wing_num_flap_segments sea_level_density wing_high_lift_mass_coefficient wing_area wing_slat_chord_ratio wing_flap_chord_ratio wing_taper_ratio wing_flap_span_ratio wing_slat_span_ratio design_wing_loading wing_thickness_to_chord_root wing_span fuselage_avg_diameter wing_center_chord landing_lift_coefficient_max : ℝ)
    (hl : 0 < wing_taper_ratio)
    (ht : 0 < wing_thickness_to_chord_root)
    (hc : 0 < wing_center_chord)
    (hd : 0 < fuselage_avg_diameter - (wing_thickness_to_chord_root * wing_center_chord))
    (hb : 0 < wing_span)
    (hs : 0 < wing_slat_chord_ratio)
    (ha : 0 < wing_area)
    (hr : 0 < wing_slat_span_ratio)
    (h8 : 0 < 2 - ((1 - wing_taper_ratio) * ((99 / 100) + (((2 * (sqrt ((wing_thickness_to_chord_root * wing_center_chord) * (fuselage_avg_diameter - (wing_thickness_to_chord_root * wing_center_chord))))) + (2 / 5)) / wing_span))))
    (hq : 0 < sea_level_density)
    (hm : 0 < landing_lift_coefficient_max)
    (hg : 0 < design_wing_loading)
    (hn : 0 < wing_num_flap_segments) :
    HasDerivAt (fun y => out_wing_high_lift_mass wing_num_flap_segments sea_level_density wing_high_lift_mass_coefficient wing_area wing_slat_chord_ratio wing_flap_chord_ratio wing_taper_ratio wing_flap_span_ratio wing_slat_span_ratio design_wing_loading wing_thickness_to_chord_root wing_span fuselage_avg_diameter y landing_lift_coefficient_max)
      (J_wing_high_lift_mass__wing_center_chord wing_num_flap_segments sea_level_density wing_high_lift_mass_coefficient wing_area wing_slat_chord_ratio wing_flap_chord_ratio wing_taper_ratio wing_slat_span_ratio design_wing_loading wing_thickness_to_chord_root wing_span fuselage_avg_diameter wing_center_chord landing_lift_coefficient_max) wing_center_chord := by
  have hu : 0 < (wing_thickness_to_chord_root * wing_center_chord) * (fuselage_avg_diameter - wing_thickness_to_chord_root * wing_center_chord) := mul_pos (mul_pos ht hc) hd
  have h1 : HasDerivAt (fun y => out_flap_mass wing_num_flap_segments sea_level_density wing_high_lift_mass_coefficient wing_area wing_flap_chord_ratio wing_taper_ratio wing_flap_span_ratio design_wing_loading wing_thickness_to_chord_root wing_span fuselage_avg_diameter y landing_lift_coefficient_max) (J_flap_mass__wing_center_chord wing_num_flap_segments sea_level_density wing_high_lift_mass_coefficient wing_area wing_flap_chord_ratio wing_taper_ratio design_wing_loading wing_thickness_to_chord_root wing_span fuselage_avg_diameter wing_center_chord landing_lift_coefficient_max) wing_center_chord := by
    apply d_flap_mass__wing_center_chord <;> assumption
  have h2 : HasDerivAt (fun y => out_slat_mass wing_area wing_slat_chord_ratio wing_taper_ratio wing_slat_span_ratio wing_thickness_to_chord_root wing_span fuselage_avg_diameter y) (J_slat_mass__wing_center_chord wing_area wing_slat_chord_ratio wing_taper_ratio wing_slat_span_ratio wing_thickness_to_chord_root wing_span fuselage_avg_diameter wing_center_chord) wing_center_chord := by
    apply slat_wing_center_chord <;> assumption
  exact deriv_as (h1.add h2) (fun _ => rfl) rfl

/-- the declared derivative of `wing_high_lift_mass` by `wing_thickness_to_chord_root` is right,
aviary/subsystems/mass/gasp_based/fixed.py:1353-2146 -/
theorem all_wing_thickness_to_chord_root (wing_num_flap_segments sea_level_density wing_high_lift_mass_coefficient wing_area wing_slat_chord_ratio wing_flap_chord_ratio wing_taper_ratio wing_flap_span_ratio wing_slat_span_ratio design_wing_loading wing_thickness_to_chord_root wing_span fuselage_avg_diameter wing_center_chord landing_lift_coefficient_max : ℝ)
    (hl : 0 < wing_taper_ratio)
    (ht : 0 < wing_thickness_to_chord_root)
    (hc : 0 < wing_center_chord)
    (hd : 0 < fuselage_avg_diameter - (wing_thickness_to_chord_root * wing_center_chord))
    (hb : 0 < wing_span)
    (hs : 0 < wing_slat_chord_ratio)
    (ha : 0 < wing_area)
    (hr : 0 < wing_slat_span_ratio)
    (h8 : 0 < 2 - ((1 - wing_taper_ratio) * ((99 / 100) + (((2 * (sqrt ((wing_thickness_to_chord_root * wing_center_chord) * (fuselage_avg_diameter - (wing_thickness_to_chord_root * wing_center_chord))))) + (2 / 5)) / wing_span))))
    (hq : 0 < sea_level_density)
    (hm : 0 < landing_lift_coefficient_max)
    (hg : 0 < design_wing_loading)
    (hn : 0 < wing_num_flap_segments) :
    HasDerivAt (fun y => out_wing_high_lift_mass wing_num_flap_segments sea_level_density wing_high_lift_mass_coefficient wing_area wing_slat_chord_ratio wing_flap_chord_ratio wing_taper_ratio wing_flap_span_ratio wing_slat_span_ratio design_wing_loading y wing_span fuselage_avg_diameter wing_center_chord landing_lift_coefficient_max)
      (J_wing_high_lift_mass__wing_thickness_to_chord_root wing_num_flap_segments sea_level_density wing_high_lift_mass_coefficient wing_area wing_slat_chord_ratio wing_flap_chord_ratio wing_taper_ratio wing_slat_span_ratio design_wing_loading wing_thickness_to_chord_root wing_span fuselage_avg_diameter wing_center_chord landing_lift_coefficient_max) wing_thickness_to_chord_root := by
  have hu : 0 < (wing_thickness_to_chord_root * wing_center_chord) * (fuselage_avg_diameter - wing_thickness_to_chord_root * wing_center_chord) := mul_pos (mul_pos ht hc) hd
  have h1 : HasDerivAt (fun y => out_flap_mass wing_num_flap_segments sea_level_density wing_high_lift_mass_coefficient wing_area wing_flap_chord_ratio wing_taper_ratio wing_flap_span_ratio design_wing_loading y wing_span fuselage_avg_diameter wing_center_chord landing_lift_coefficient_max) (J_flap_mass__wing_thickness_to_chord_root wing_num_flap_segments sea_level_density wing_high_lift_mass_coefficient wing_area wing_flap_chord_ratio wing_taper_ratio design_wing_loading wing_thickness_to_chord_root wing_span fuselage_avg_diameter wing_center_chord landing_lift_coefficient_max) wing_thickness_to_chord_root := by
    apply d_flap_mass__wing_thickness_to_chord_root <;> assumption
  have h2 : HasDerivAt (fun y => out_slat_mass wing_area wing_slat_chord_ratio wing_taper_ratio wing_slat_span_ratio y wing_span fuselage_avg_diameter wing_center_chord) (J_slat_mass__wing_thickness_to_chord_root wing_area wing_slat_chord_ratio wing_taper_ratio wing_slat_span_ratio wing_thickness_to_chord_root wing_span fuselage_avg_diameter wing_center_chord) wing_thickness_to_chord_root := by
    apply slat_wing_thickness_to_chord_root <;> assumption
  exact deriv_as (h1.add h2) (fun _ => rfl) rfl

end tripleslotted

namespace fowler
open Verif.Comp.MassGaspBasedFixed.HighLiftMass_fowler

/-- the declared derivative of `slat_mass` by `fuselage_avg_diameter` is right,
aviary/subsystems/mass/gasp_based/fixed.py:1353-2146 -/
theorem slat_fuselage_avg_diameter (wing_area wing_slat_chord_ratio wing_taper_ratio wing_slat_span_ratio wing_thickness_to_chord_root wing_span fuselage_avg_diameter wing_center_chord : ℝ)
    (hl : 0 < wing_taper_ratio)
    (ht : 0 < wing_thickness_to_chord_root)
    (hc : 0 < wing_center_chord)
    (hd : 0 < fuselage_avg_diameter - (wing_thickness_to_chord_root * wing_center_chord))
    (hb : 0 < wing_span)
    (hs : 0 < wing_slat_chord_ratio)
    (ha : 0 < wing_area)
    (hr : 0 < wing_slat_span_ratio)
    (h8 : 0 < 2 - ((1 - wing_taper_ratio) * ((99 / 100) + (((2 * (sqrt ((wing_thickness_to_chord_root * wing_center_chord) * (fuselage_avg_diameter - (wing_thickness_to_chord_root * wing_center_chord))))) + (2 / 5)) / wing_span)))) :
    HasDerivAt (fun y => out_slat_mass wing_area wing_slat_chord_ratio wing_taper_ratio wing_slat_span_ratio wing_thickness_to_chord_root wing_span y wing_center_chord)
      (J_slat_mass__fuselage_avg_diameter wing_area wing_slat_chord_ratio wing_taper_ratio wing_slat_span_ratio wing_thickness_to_chord_root wing_span fuselage_avg_diameter wing_center_chord) fuselage_avg_diameter := by
  have hu : 0 < (wing_thickness_to_chord_root * wing_center_chord) * (fuselage_avg_diameter - wing_thickness_to_chord_root * wing_center_chord) := mul_pos (mul_pos ht hc) hd
  have hk : 0 < sle wing_area wing_slat_chord_ratio wing_taper_ratio wing_slat_span_ratio wing_thickness_to_chord_root wing_span fuselage_avg_diameter wing_center_chord := by
    unfold sle body_to_span_ratio
    have := mul_pos (mul_pos (div_pos (mul_pos hs ha) (show 0 < 1 + wing_taper_ratio by linarith)) hr) h8
    exact this
  refine deriv_as (slat_pow (sle_chain (btsr_cw wing_thickness_to_chord_root wing_span fuselage_avg_diameter wing_center_chord hu) wing_slat_chord_ratio wing_area wing_taper_ratio wing_slat_span_ratio) hk) (fun _ => rfl) ?_
  simp only [J_slat_mass__fuselage_avg_diameter, sle_2, body_to_span_ratio_2, u1, dsle_dbtsr, dbtsr_dcw]
  ring

/-- the declared derivative of `slat_mass` by `wing_center_chord` is right,
aviary/subsystems/mass/gasp_based/fixed.py:1353-2146 -/
theorem slat_wing_center_chord (wing_area wing_slat_chord_ratio wing_taper_ratio wing_slat_span_ratio wing_thickness_to_chord_root wing_span fuselage_avg_diameter wing_center_chord : ℝ)
    (hl : 0 < wing_taper_ratio)
    (ht : 0 < wing_thickness_to_chord_root)
    (hc : 0 < wing_center_chord)
    (hd : 0 < fuselage_avg_diameter - (wing_thickness_to_chord_root * wing_center_chord))
    (hb : 0 < wing_span)
    (hs : 0 < wing_slat_chord_ratio)
    (ha : 0 < wing_area)
    (hr : 0 < wing_slat_span_ratio)
    (h8 : 0 < 2 - ((1 - wing_taper_ratio) * ((99 / 100) + (((2 * (sqrt ((wing_thickness_to_chord_root * wing_center_chord) * (fuselage_avg_diameter - (wing_thickness_to_chord_root * wing_center_chord))))) + (2 / 5)) / wing_span)))) :
    HasDerivAt (fun y => out_slat_mass wing_area wing_slat_chord_ratio wing_taper_ratio wing_slat_span_ratio wing_thickness_to_chord_root wing_span fuselage_avg_diameter y)
      (J_slat_mass__wing_center_chord wing_area wing_slat_chord_ratio wing_taper_ratio wing_slat_span_ratio wing_thickness_to_chord_root wing_span fuselage_avg_diameter wing_center_chord) wing_center_chord := by
  have hu : 0 < (wing_thickness_to_chord_root * wing_center_chord) * (fuselage_avg_diameter - wing_thickness_to_chord_root * wing_center_chord) := mul_pos (mul_pos ht hc) hd
  have hk : 0 < sle wing_area wing_slat_chord_ratio wing_taper_ratio wing_slat_span_ratio wing_thickness_to_chord_root wing_span fuselage_avg_diameter wing_center_chord := by
    unfold sle body_to_span_ratio
    have := mul_pos (mul_pos (div_pos (mul_pos hs ha) (show 0 < 1 + wing_taper_ratio by linarith)) hr) h8
    exact this
  refine deriv_as (slat_pow (sle_chain (btsr_cc wing_thickness_to_chord_root wing_span fuselage_avg_diameter wing_center_chord hu) wing_slat_chord_ratio wing_area wing_taper_ratio wing_slat_span_ratio) hk) (fun _ => rfl) ?_
  simp only [J_slat_mass__wing_center_chord, sle_2, body_to_span_ratio_2, u1, dsle_dbtsr, dbtsr_dcc]
  ring

/-- the declared derivative of `slat_mass` by `wing_thickness_to_chord_root` is right,
aviary/subsystems/mass/gasp_based/fixed.py:1353-2146 -/
theorem slat_wing_thickness_to_chord_root (wing_area wing_slat_chord_ratio wing_taper_ratio wing_slat_span_ratio wing_thickness_to_chord_root wing_span fuselage_avg_diameter wing_center_chord : ℝ)
    (hl : 0 < wing_taper_ratio)
    (ht : 0 < wing_thickness_to_chord_root)
    (hc : 0 < wing_center_chord)
    (hd : 0 < fuselage_avg_diameter - (wing_thickness_to_chord_root * wing_center_chord))
    (hb : 0 < wing_span)
    (hs : 0 < wing_slat_chord_ratio)
    (ha : 0 < wing_area)
    (hr : 0 < wing_slat_span_ratio)
    (h8 : 0 < 2 - ((1 - wing_taper_ratio) * ((99 / 100) + (((2 * (sqrt ((wing_thickness_to_chord_root * wing_center_chord) * (fuselage_avg_diameter - (wing_thickness_to_chord_root * wing_center_chord))))) + (2 / 5)) / wing_span)))) :
    HasDerivAt (fun y => out_slat_mass wing_area wing_slat_chord_ratio wing_taper_ratio wing_slat_span_ratio y wing_span fuselage_avg_diameter wing_center_chord)
      (J_slat_mass__wing_thickness_to_chord_root wing_area wing_slat_chord_ratio wing_taper_ratio wing_slat_span_ratio wing_thickness_to_chord_root wing_span fuselage_avg_diameter wing_center_chord) wing_thickness_to_chord_root := by
  have hu : 0 < (wing_thickness_to_chord_root * wing_center_chord) * (fuselage_avg_diameter - wing_thickness_to_chord_root * wing_center_chord) := mul_pos (mul_pos ht hc) hd
  have hk : 0 < sle wing_area wing_slat_chord_ratio wing_taper_ratio wing_slat_span_ratio wing_thickness_to_chord_root wing_span fuselage_avg_diameter wing_center_chord := by
    unfold sle body_to_span_ratio
    have := mul_pos (mul_pos (div_pos (mul_pos hs ha) (show 0 < 1 + wing_taper_ratio by linarith)) hr) h8
    exact this
  refine deriv_as (slat_pow (sle_chain (btsr_tc wing_thickness_to_chord_root wing_span fuselage_avg_diameter wing_center_chord hu) wing_slat_chord_ratio wing_area wing_taper_ratio wing_slat_span_ratio) hk) (fun _ => rfl) ?_
  simp only [J_slat_mass__wing_thickness_to_chord_root, sle_2, body_to_span_ratio_2, u1, dsle_dbtsr, dbtsr_dtcrr]
  ring

/-- the declared derivative of `flap_mass` by `fuselage_avg_diameter` is right,
aviary/subsystems/mass/gasp_based/fixed.py:1353-2146 -/
theorem flap_fuselage_avg_diameter (wing_num_flap_segments sea_level_density wing_high_lift_mass_coefficient wing_area wing_flap_chord_ratio wing_taper_ratio wing_flap_span_ratio design_wing_loading wing_thickness_to_chord_root wing_span fuselage_avg_diameter wing_center_chord landing_lift_coefficient_max : ℝ)
    (hl : 0 < wing_taper_ratio)
    (ht : 0 < wing_thickness_to_chord_root)
    (hc : 0 < wing_center_chord)
    (hd : 0 < fuselage_avg_diameter - (wing_thickness_to_chord_root * wing_center_chord))
    (hb : 0 < wing_span)
    (hq : 0 < sea_level_density)
    (hm : 0 < landing_lift_coefficient_max)
    (hg : 0 < design_wing_loading)
    (hn : 0 < wing_num_flap_segments)
    (hf : 0 < sflap wing_area wing_flap_chord_ratio wing_taper_ratio wing_flap_span_ratio wing_thickness_to_chord_root wing_span fuselage_avg_diameter wing_center_chord) :
    HasDerivAt (fun y => out_flap_mass wing_num_flap_segments sea_level_density wing_high_lift_mass_coefficient wing_area wing_flap_chord_ratio wing_taper_ratio wing_flap_span_ratio design_wing_loading wing_thickness_to_chord_root wing_span y wing_center_chord landing_lift_coefficient_max)
      (J_flap_mass__fuselage_avg_diameter wing_num_flap_segments sea_level_density wing_high_lift_mass_coefficient wing_area wing_flap_chord_ratio wing_taper_ratio wing_flap_span_ratio design_wing_loading wing_thickness_to_chord_root wing_span fuselage_avg_diameter wing_center_chord landing_lift_coefficient_max) fuselage_avg_diameter := by
  have hu : 0 < (wing_thickness_to_chord_root * wing_center_chord) * (fuselage_avg_diameter - wing_thickness_to_chord_root * wing_center_chord) := mul_pos (mul_pos ht hc) hd
  refine deriv_as (fowler_pow (sflap_chain (btsr_cw wing_thickness_to_chord_root wing_span fuselage_avg_diameter wing_center_chord hu) wing_flap_chord_ratio wing_area wing_taper_ratio wing_flap_span_ratio (by linarith)) hf (wing_high_lift_mass_coefficient * (vflap sea_level_density design_wing_loading landing_lift_coefficient_max / 100) ^ ((119 / 50) : ℝ)) (wing_num_flap_segments ^ ((119 / 200) : ℝ))) (fun _ => rfl) ?_
  simp only [J_flap_mass__fuselage_avg_diameter, sflap_2, sflap, body_to_span_ratio, body_to_span_ratio_2, u1, dsflap_dbtsr, dbtsr_dcw, vflap, vflap_2, vstall, u2]
  ring

/-- the declared derivative of `flap_mass` by `wing_center_chord` is right,
aviary/subsystems/mass/gasp_based/fixed.py:1353-2146 -/
theorem flap_wing_center_chord (wing_num_flap_segments sea_level_density wing_high_lift_mass_coefficient wing_area wing_flap_chord_ratio wing_taper_ratio wing_flap_span_ratio design_wing_loading wing_thickness_to_chord_root wing_span fuselage_avg_diameter wing_center_chord landing_lift_coefficient_max : ℝ)
    (hl : 0 < wing_taper_ratio)
    (ht : 0 < wing_thickness_to_chord_root)
    (hc : 0 < wing_center_chord)
    (hd : 0 < fuselage_avg_diameter - (wing_thickness_to_chord_root * wing_center_chord))
    (hb : 0 < wing_span)
    (hq : 0 < sea_level_density)
    (hm : 0 < landing_lift_coefficient_max)
    (hg : 0 < design_wing_loading)
    (hn : 0 < wing_num_flap_segments)
    (hf : 0 < sflap wing_area wing_flap_chord_ratio wing_taper_ratio wing_flap_span_ratio wing_thickness_to_chord_root wing_span fuselage_avg_diameter wing_center_chord) :
    HasDerivAt (fun y => out_flap_mass wing_num_flap_segments sea_level_density wing_high_lift_mass_coefficient wing_area wing_flap_chord_ratio wing_taper_ratio wing_flap_span_ratio design_wing_loading wing_thickness_to_chord_root wing_span fuselage_avg_diameter y landing_lift_coefficient_max)
      (J_flap_mass__wing_center_chord wing_num_flap_segments sea_level_density wing_high_lift_mass_coefficient wing_area wing_flap_chord_ratio wing_taper_ratio wing_flap_span_ratio design_wing_loading wing_thickness_to_chord_root wing_span fuselage_avg_diameter wing_center_chord landing_lift_coefficient_max) wing_center_chord := by
  have hu : 0 < (wing_thickness_to_chord_root * wing_center_chord) * (fuselage_avg_diameter - wing_thickness_to_chord_root * wing_center_chord) := mul_pos (mul_pos ht hc) hd
  refine deriv_as (fowler_pow (sflap_chain (btsr_cc wing_thickness_to_chord_root wing_span fuselage_avg_diameter wing_center_chord hu) wing_flap_chord_ratio wing_area wing_taper_ratio wing_flap_span_ratio (by linarith)) hf (wing_high_lift_mass_coefficient * (vflap sea_level_density design_wing_loading landing_lift_coefficient_max / 100) ^ ((119 / 50) : ℝ)) (wing_num_flap_segments ^ ((119 / 200) : ℝ))) (fun _ => rfl) ?_
  simp only [J_flap_mass__wing_center_chord, sflap_2, sflap, body_to_span_ratio, body_to_span_ratio_2, u1, dsflap_dbtsr, dbtsr_dcc, vflap, vflap_2, vstall, u2]
  ring

/-- the declared derivative of `flap_mass` by `wing_span` is right,
aviary/subsystems/mass/gasp_based/fixed.py:1353-2146 -/
theorem flap_wing_span (wing_num_flap_segments sea_level_density wing_high_lift_mass_coefficient wing_area wing_flap_chord_ratio wing_taper_ratio wing_flap_span_ratio design_wing_loading wing_thickness_to_chord_root wing_span fuselage_avg_diameter wing_center_chord landing_lift_coefficient_max : ℝ)
    (hl : 0 < wing_taper_ratio)
    (ht : 0 < wing_thickness_to_chord_root)
    (hc : 0 < wing_center_chord)
    (hd : 0 < fuselage_avg_diameter - (wing_thickness_to_chord_root * wing_center_chord))
    (hb : 0 < wing_span)
    (hq : 0 < sea_level_density)
    (hm : 0 < landing_lift_coefficient_max)
    (hg : 0 < design_wing_loading)
    (hn : 0 < wing_num_flap_segments)
    (hf : 0 < sflap wing_area wing_flap_chord_ratio wing_taper_ratio wing_flap_span_ratio wing_thickness_to_chord_root wing_span fuselage_avg_diameter wing_center_chord) :
    HasDerivAt (fun y => out_flap_mass wing_num_flap_segments sea_level_density wing_high_lift_mass_coefficient wing_area wing_flap_chord_ratio wing_taper_ratio wing_flap_span_ratio design_wing_loading wing_thickness_to_chord_root y fuselage_avg_diameter wing_center_chord landing_lift_coefficient_max)
      (J_flap_mass__wing_span wing_num_flap_segments sea_level_density wing_high_lift_mass_coefficient wing_area wing_flap_chord_ratio wing_taper_ratio wing_flap_span_ratio design_wing_loading wing_thickness_to_chord_root wing_span fuselage_avg_diameter wing_center_chord landing_lift_coefficient_max) wing_span := by
  refine deriv_as (fowler_pow (sflap_chain (btsr_span wing_thickness_to_chord_root wing_span fuselage_avg_diameter wing_center_chord hb.ne') wing_flap_chord_ratio wing_area wing_taper_ratio wing_flap_span_ratio (by linarith)) hf (wing_high_lift_mass_coefficient * (vflap sea_level_density design_wing_loading landing_lift_coefficient_max / 100) ^ ((119 / 50) : ℝ)) (wing_num_flap_segments ^ ((119 / 200) : ℝ))) (fun _ => rfl) ?_
  simp only [J_flap_mass__wing_span, sflap_2, sflap, body_to_span_ratio, body_to_span_ratio_2, u1, dsflap_dbtsr, dbtsr_dwingspan, vflap, vflap_2, vstall, u2]
  ring

/-- the declared derivative of `flap_mass` by `wing_thickness_to_chord_root` is right,
aviary/subsystems/mass/gasp_based/fixed.py:1353-2146 -/
theorem flap_wing_thickness_to_chord_root (wing_num_flap_segments sea_level_density wing_high_lift_mass_coefficient wing_area wing_flap_chord_ratio wing_taper_ratio wing_flap_span_ratio design_wing_loading wing_thickness_to_chord_root wing_span fuselage_avg_diameter wing_center_chord landing_lift_coefficient_max : ℝ)
    (hl : 0 < wing_taper_ratio)
    (ht : 0 < wing_thickness_to_chord_root)
    (hc : 0 < wing_center_chord)
    (hd : 0 < fuselage_avg_diameter - (wing_thickness_to_chord_root * wing_center_chord))
    (hb : 0 < wing_span)
    (hq : 0 < sea_level_density)
    (hm : 0 < landing_lift_coefficient_max)
    (hg : 0 < design_wing_loading)
    (hn : 0 < wing_num_flap_segments)
    (hf : 0 < sflap wing_area wing_flap_chord_ratio wing_taper_ratio wing_flap_span_ratio wing_thickness_to_chord_root wing_span fuselage_avg_diameter wing_center_chord) :
    HasDerivAt (fun y => out_flap_mass wing_num_flap_segments sea_level_density wing_high_lift_mass_coefficient wing_area wing_flap_chord_ratio wing_taper_ratio wing_flap_span_ratio design_wing_loading y wing_span fuselage_avg_diameter wing_center_chord landing_lift_coefficient_max)
      (J_flap_mass__wing_thickness_to_chord_root wing_num_flap_segments sea_level_density wing_high_lift_mass_coefficient wing_area wing_flap_chord_ratio wing_taper_ratio wing_flap_span_ratio design_wing_loading wing_thickness_to_chord_root wing_span fuselage_avg_diameter wing_center_chord landing_lift_coefficient_max) wing_thickness_to_chord_root := by
  have hu : 0 < (wing_thickness_to_chord_root * wing_center_chord) * (fuselage_avg_diameter - wing_thickness_to_chord_root * wing_center_chord) := mul_pos (mul_pos ht hc) hd
  refine deriv_as (fowler_pow (sflap_chain (btsr_tc wing_thickness_to_chord_root wing_span fuselage_avg_diameter wing_center_chord hu) wing_flap_chord_ratio wing_area wing_taper_ratio wing_flap_span_ratio (by linarith)) hf (wing_high_lift_mass_coefficient * (vflap sea_level_density design_wing_loading landing_lift_coefficient_max / 100) ^ ((119 / 50) : ℝ)) (wing_num_flap_segments ^ ((119 / 200) : ℝ))) (fun _ => rfl) ?_
  simp only [J_flap_mass__wing_thickness_to_chord_root, sflap_2, sflap, body_to_span_ratio, body_to_span_ratio_2, u1, dsflap_dbtsr, dbtsr_dtcrr, vflap, vflap_2, vstall, u2]
  ring

/-- the declared derivative of `wing_high_lift_mass` by `fuselage_avg_diameter` is right,
aviary/subsystems/mass/gasp_based/fixed.py:1353-2146 -/
theorem all_fuselage_avg_diameter (wing_num_flap_segments sea_level_density wing_high_lift_mass_coefficient wing_area wing_slat_chord_ratio wing_flap_chord_ratio wing_taper_ratio wing_flap_span_ratio wing_slat_span_ratio design_wing_loading wing_thickness_to_chord_root wing_span fuselage_avg_diameter wing_center_chord landing_lift_coefficient_max : ℝ)
    (hl : 0 < wing_taper_ratio)
    (ht : 0 < wing_thickness_to_chord_root)
    (hc : 0 < wing_center_chord)
    (hd : 0 < fuselage_avg_diameter - (wing_thickness_to_chord_root * wing_center_chord))
    (hb : 0 < wing_span)
    (hs : 0 < wing_slat_chord_ratio)
    (ha : 0 < wing_area)
    (hr : 0 < wing_slat_span_ratio)
    (h8 : 0 < 2 - ((1 - wing_taper_ratio) * ((99 / 100) + (((2 * (sqrt ((wing_thickness_to_chord_root * wing_center_chord) * (fuselage_avg_diameter - (wing_thickness_to_chord_root * wing_center_chord))))) + (2 / 5)) / wing_span))))
    (hq : 0 < sea_level_density)
    (hm : 0 < landing_lift_coefficient_max)
    (hg : 0 < design_wing_loading)
    (hn : 0 < wing_num_flap_segments)
    (hf : 0 < sflap wing_area wing_flap_chord_ratio wing_taper_ratio wing_flap_span_ratio wing_thickness_to_chord_root wing_span fuselage_avg_diameter wing_center_chord) :
    HasDerivAt (fun y => out_wing_high_lift_mass wing_num_flap_segments sea_level_density wing_high_lift_mass_coefficient wing_area wing_slat_chord_ratio wing_flap_chord_ratio wing_taper_ratio wing_flap_span_ratio wing_slat_span_ratio design_wing_loading wing_thickness_to_chord_root wing_span y wing_center_chord landing_lift_coefficient_max)
      (J_wing_high_lift_mass__fuselage_avg_diameter wing_num_flap_segments sea_level_density wing_high_lift_mass_coefficient wing_area wing_slat_chord_ratio wing_flap_chord_ratio wing_taper_ratio wing_flap_span_ratio wing_slat_span_ratio design_wing_loading wing_thickness_to_chord_root wing_span fuselage_avg_diameter wing_center_chord landing_lift_coefficient_max) fuselage_avg_diameter := by
  have hu : 0 < (wing_thickness_to_chord_root * wing_center_chord) * (fuselage_avg_diameter - wing_thickness_to_chord_root * wing_center_chord) := mul_pos (mul_pos ht hc) hd
  have h1 : HasDerivAt (fun y => out_flap_mass wing_num_flap_segments sea_level_density wing_high_lift_mass_coefficient wing_area wing_flap_chord_ratio wing_taper_ratio wing_flap_span_ratio design_wing_loading wing_thickness_to_chord_root wing_span y wing_center_chord landing_lift_coefficient_max) (J_flap_mass__fuselage_avg_diameter wing_num_flap_segments sea_level_density wing_high_lift_mass_coefficient wing_area wing_flap_chord_ratio wing_taper_ratio wing_flap_span_ratio design_wing_loading wing_thickness_to_chord_root wing_span fuselage_avg_diameter wing_center_chord landing_lift_coefficient_max) fuselage_avg_diameter := by
    apply flap_fuselage_avg_diameter <;> assumption
  have h2 : HasDerivAt (fun y => out_slat_mass wing_area wing_slat_chord_ratio wing_taper_ratio wing_slat_span_ratio wing_thickness_to_chord_root wing_span y wing_center_chord) (J_slat_mass__fuselage_avg_diameter wing_area wing_slat_chord_ratio wing_taper_ratio wing_slat_span_ratio wing_thickness_to_chord_root wing_span fuselage_avg_diameter wing_center_chord) fuselage_avg_diameter := by
    apply slat_fuselage_avg_diameter <;> assumption
  exact deriv_as (h1.add h2) (fun _ => rfl) rfl

/-- the declared derivative of `wing_high_lift_mass` by `wing_center_chord` is right,
aviary/subsystems/mass/gasp_based/fixed.py:1353-2146 -/
theorem all_wing_center_chord (wing_num_flap_segments sea_level_density wing_high_lift_mass_coefficient wing_area wing_slat_chord_ratio wing_flap_chord_ratio wing_taper_ratio wing_flap_span_ratio wing_slat_span_ratio design_wing_loading wing_thickness_to_chord_root wing_span fuselage_avg_diameter wing_center_chord landing_lift_coefficient_max : ℝ)
    (hl : 0 < wing_taper_ratio)
    (ht : 0 < wing_thickness_to_chord_root)
    (hc : 0 < wing_center_chord)
    (hd : 0 < fuselage_avg_diameter - (wing_thickness_to_chord_root * wing_center_chord))
    (hb : 0 < wing_span)
    (hs : 0 < wing_slat_chord_ratio)
    (ha : 0 < wing_area)
    (hr : 0 < wing_slat_span_ratio)
    (h8 : 0 < 2 - ((1 - wing_taper_ratio) * ((99 / 100) + (((2 * (sqrt ((wing_thickness_to_chord_root * wing_center_chord) * (fuselage_avg_diameter - (wing_thickness_to_chord_root * wing_center_chord))))) + (2 / 5)) / wing_span))))
    (hq : 0 < sea_level_density)
    (hm : 0 < landing_lift_coefficient_max)
    (hg : 0 < design_wing_loading)
    (hn : 0 < wing_num_flap_segments)
    (hf : 0 < sflap wing_area wing_flap_chord_ratio wing_taper_ratio wing_flap_span_ratio wing_thickness_to_chord_root wing_span fuselage_avg_diameter wing_center_chord) :
    HasDerivAt (fun y => out_wing_high_lift_mass wing_num_flap_segments sea_level_density wing_high_lift_mass_coefficient wing_area wing_slat_chord_ratio wing_flap_chord_ratio wing_taper_ratio wing_flap_span_ratio wing_slat_span_ratio design_wing_loading wing_thickness_to_chord_root wing_span fuselage_avg_diameter y landing_lift_coefficient_max)
      (J_wing_high_lift_mass__wing_center_chord wing_num_flap_segments sea_level_density wing_high_lift_mass_coefficient wing_area wing_slat_chord_ratio wing_flap_chord_ratio wing_taper_ratio wing_flap_span_ratio wing_slat_span_ratio design_wing_loading wing_thickness_to_chord_root wing_span fuselage_avg_diameter wing_center_chord landing_lift_coefficient_max) wing_center_chord := by
  have hu : 0 < (wing_thickness_to_chord_root * wing_center_chord) * (fuselage_avg_diameter - wing_thickness_to_chord_root * wing_center_chord) := mul_pos (mul_pos ht hc) hd
  have h1 : HasDerivAt (fun y => out_flap_mass wing_num_flap_segments sea_level_density wing_high_lift_mass_coefficient wing_area wing_flap_chord_ratio wing_taper_ratio wing_flap_span_ratio design_wing_loading wing_thickness_to_chord_root wing_span fuselage_avg_diameter y landing_lift_coefficient_max) (J_flap_mass__wing_center_chord wing_num_flap_segments sea_level_density wing_high_lift_mass_coefficient wing_area wing_flap_chord_ratio wing_taper_ratio wing_flap_span_ratio design_wing_loading wing_thickness_to_chord_root wing_span fuselage_avg_diameter wing_center_chord landing_lift_coefficient_max) wing_center_chord := by
    apply flap_wing_center_chord <;> assumption
  have h2 : HasDerivAt (fun y => out_slat_mass wing_area wing_slat_chord_ratio wing_taper_ratio wing_slat_span_ratio wing_thickness_to_chord_root wing_span fuselage_avg_diameter y) (J_slat_mass__wing_center_chord wing_area wing_slat_chord_ratio wing_taper_ratio wing_slat_span_ratio wing_thickness_to_chord_root wing_span fuselage_avg_diameter wing_center_chord) wing_center_chord := by
    apply slat_wing_center_chord <;> assumption
  exact deriv_as (h1.add h2) (fun _ => rfl) rfl

/-- the declared derivative of `wing_high_lift_mass` by `wing_span` is right,
aviary/subsystems/mass/gasp_based/fixed.py:1353-2146 -/
theorem all_wing_span (wing_num_flap_segments sea_level_density wing_high_lift_mass_coefficient wing_area wing_slat_chord_ratio wing_flap_chord_ratio wing_taper_ratio wing_flap_span_ratio wing_slat_span_ratio design_wing_loading wing_thickness_to_chord_root wing_span fuselage_avg_diameter wing_center_chord landing_lift_coefficient_max : ℝ)
    (hl : 0 < wing_taper_ratio)
    (ht : 0 < wing_thickness_to_chord_root)
    (hc : 0 < wing_center_chord)
    (hd : 0 < fuselage_avg_diameter - (wing_thickness_to_chord_root * wing_center_chord))
    (hb : 0 < wing_span)
    (hs : 0 < wing_slat_chord_ratio)
    (ha : 0 < wing_area)
    (hr : 0 < wing_slat_span_ratio)
    (h8 : 0 < 2 - ((1 - wing_taper_ratio) * ((99 / 100) + (((2 * (sqrt ((wing_thickness_to_chord_root * wing_center_chord) * (fuselage_avg_diameter - (wing_thickness_to_chord_root * wing_center_chord))))) + (2 / 5)) / wing_span))))
    (hq : 0 < sea_level_density)
    (hm : 0 < landing_lift_coefficient_max)
    (hg : 0 < design_wing_loading)
    (hn : 0 < wing_num_flap_segments)
    (hf : 0 < sflap wing_area wing_flap_chord_ratio wing_taper_ratio wing_flap_span_ratio wing_thickness_to_chord_root wing_span fuselage_avg_diameter wing_center_chord) :
    HasDerivAt (fun y => out_wing_high_lift_mass wing_num_flap_segments sea_level_density wing_high_lift_mass_coefficient wing_area wing_slat_chord_ratio wing_flap_chord_ratio wing_taper_ratio wing_flap_span_ratio wing_slat_span_ratio design_wing_loading wing_thickness_to_chord_root y fuselage_avg_diameter wing_center_chord landing_lift_coefficient_max)
      (J_wing_high_lift_mass__wing_span wing_num_flap_segments sea_level_density wing_high_lift_mass_coefficient wing_area wing_slat_chord_ratio wing_flap_chord_ratio wing_taper_ratio wing_flap_span_ratio wing_slat_span_ratio design_wing_loading wing_thickness_to_chord_root wing_span fuselage_avg_diameter wing_center_chord landing_lift_coefficient_max) wing_span := by
  have h1 : HasDerivAt (fun y => out_flap_mass wing_num_flap_segments sea_level_density wing_high_lift_mass_coefficient wing_area wing_flap_chord_ratio wing_taper_ratio wing_flap_span_ratio design_wing_loading wing_thickness_to_chord_root y fuselage_avg_diameter wing_center_chord landing_lift_coefficient_max) (J_flap_mass__wing_span wing_num_flap_segments sea_level_density wing_high_lift_mass_coefficient wing_area wing_flap_chord_ratio wing_taper_ratio wing_flap_span_ratio design_wing_loading wing_thickness_to_chord_root wing_span fuselage_avg_diameter wing_center_chord landing_lift_coefficient_max) wing_span := by
    apply flap_wing_span <;> assumption
  have h2 : HasDerivAt (fun y => out_slat_mass wing_area wing_slat_chord_ratio wing_taper_ratio wing_slat_span_ratio wing_thickness_to_chord_root y fuselage_avg_diameter wing_center_chord) (J_slat_mass__wing_span wing_area wing_slat_chord_ratio wing_taper_ratio wing_slat_span_ratio wing_thickness_to_chord_root wing_span fuselage_avg_diameter wing_center_chord) wing_span := by
    apply d_slat_mass__wing_span <;> assumption
  exact deriv_as (h1.add h2) (fun _ => rfl) rfl

/-- the declared derivative of `wing_high_lift_mass` by `wing_thickness_to_chord_root` is right,
aviary/subsystems/mass/gasp_based/fixed.py:1353-2146 -/
theorem all_wing_thickness_to_chord_root (wing_num_flap_segments sea_level_density wing_high_lift_mass_coefficient wing_area wing_slat_chord_ratio wing_flap_chord_ratio wing_taper_ratio wing_flap_span_ratio wing_slat_span_ratio design_wing_loading wing_thickness_to_chord_root wing_span fuselage_avg_diameter wing_center_chord landing_lift_coefficient_max : ℝ)
    (hl : 0 < wing_taper_ratio)
    (ht : 0 < wing_thickness_to_chord_root)
    (hc : 0 < wing_center_chord)
    (hd : 0 < fuselage_avg_diameter - (wing_thickness_to_chord_root * wing_center_chord))
    (hb : 0 < wing_span)
    (hs : 0 < wing_slat_chord_ratio)
    (ha : 0 < wing_area)
    (hr : 0 < wing_slat_span_ratio)
    (h8 : 0 < 2 - ((1 - wing_taper_ratio) * ((99 / 100) + (((2 * (sqrt ((wing_thickness_to_chord_root * wing_center_chord) * (fuselage_avg_diameter - (wing_thickness_to_chord_root * wing_center_chord))))) + (2 / 5)) / wing_span))))
    (hq : 0 < sea_level_density)
    (hm : 0 < landing_lift_coefficient_max)
    (hg : 0 < design_wing_loading)
    (hn : 0 < wing_num_flap_segments)
    (hf : 0 < sflap wing_area wing_flap_chord_ratio wing_taper_ratio wing_flap_span_ratio wing_thickness_to_chord_root wing_span fuselage_avg_diameter wing_center_chord) :
    HasDerivAt (fun y => out_wing_high_lift_mass wing_num_flap_segments sea_level_density wing_high_lift_mass_coefficient wing_area wing_slat_chord_ratio wing_flap_chord_ratio wing_taper_ratio wing_flap_span_ratio wing_slat_span_ratio design_wing_loading y wing_span fuselage_avg_diameter wing_center_chord landing_lift_coefficient_max)
      (J_wing_high_lift_mass__wing_thickness_to_chord_root wing_num_flap_segments sea_level_density wing_high_lift_mass_coefficient wing_area wing_slat_chord_ratio wing_flap_chord_ratio wing_taper_ratio wing_flap_span_ratio wing_slat_span_ratio design_wing_loading wing_thickness_to_chord_root wing_span fuselage_avg_diameter wing_center_chord landing_lift_coefficient_max) wing_thickness_to_chord_root := by
  have hu : 0 < (wing_thickness_to_chord_root * wing_center_chord) * (fuselage_avg_diameter - wing_thickness_to_chord_root * wing_center_chord) := mul_pos (mul_pos ht hc) hd
  have h1 : HasDerivAt (fun y => out_flap_mass wing_num_flap_segments sea_level_density wing_high_lift_mass_coefficient wing_area wing_flap_chord_ratio wing_taper_ratio wing_flap_span_ratio design_wing_loading y wing_span fuselage_avg_diameter wing_center_chord landing_lift_coefficient_max) (J_flap_mass__wing_thickness_to_chord_root wing_num_flap_segments sea_level_density wing_high_lift_mass_coefficient wing_area wing_flap_chord_ratio wing_taper_ratio wing_flap_span_ratio design_wing_loading wing_thickness_to_chord_root wing_span fuselage_avg_diameter wing_center_chord landing_lift_coefficient_max) wing_thickness_to_chord_root := by
    apply flap_wing_thickness_to_chord_root <;> assumption
  have h2 : HasDerivAt (fun y => out_slat_mass wing_area wing_slat_chord_ratio wing_taper_ratio wing_slat_span_ratio y wing_span fuselage_avg_diameter wing_center_chord) (J_slat_mass__wing_thickness_to_chord_root wing_area wing_slat_chord_ratio wing_taper_ratio wing_slat_span_ratio wing_thickness_to_chord_root wing_span fuselage_avg_diameter wing_center_chord) wing_thickness_to_chord_root := by
    apply slat_wing_thickness_to_chord_root <;> assumption
  exact deriv_as (h1.add h2) (fun _ => rfl) rfl

end fowler

namespace doubleslottedfowler
open Verif.Comp.MassGaspBasedFixed.HighLiftMass_doubleslottedfowler

/-- the declared derivative of `slat_mass` by `fuselage_avg_diameter` is right,
aviary/subsystems/mass/gasp_based/fixed.py:1353-2146 -/
theorem slat_fuselage_avg_diameter (wing_area wing_slat_chord_ratio wing_taper_ratio wing_slat_span_ratio wing_thickness_to_chord_root wing_span fuselage_avg_diameter wing_center_chord : ℝ)
    (hl : 0 < wing_taper_ratio)
    (ht : 0 < wing_thickness_to_chord_root)
    (hc : 0 < wing_center_chord)
    (hd : 0 < fuselage_avg_diameter - (wing_thickness_to_chord_root * wing_center_chord))
    (hb : 0 < wing_span)
    (hs : 0 < wing_slat_chord_ratio)
    (ha : 0 < wing_area)
    (hr : 0 < wing_slat_span_ratio)
    (h8 : 0 < 2 - ((1 - wing_taper_ratio) * ((99 / 100) + (((2 * (sqrt ((wing_thickness_to_chord_root * wing_center_chord) * (fuselage_avg_diameter - (wing_thickness_to_chord_root * wing_center_chord))))) + (2 / 5)) / wing_span)))) :
    HasDerivAt (fun y => out_slat_mass wing_area wing_slat_chord_ratio wing_taper_ratio wing_slat_span_ratio wing_thickness_to_chord_root wing_span y wing_center_chord)
      (J_slat_mass__fuselage_avg_diameter wing_area wing_slat_chord_ratio wing_taper_ratio wing_slat_span_ratio wing_thickness_to_chord_root wing_span fuselage_avg_diameter wing_center_chord) fuselage_avg_diameter := by
  have hu : 0 < (wing_thickness_to_chord_root * wing_center_chord) * (fuselage_avg_diameter - wing_thickness_to_chord_root * wing_center_chord) := mul_pos (mul_pos ht hc) hd
  have hk : 0 < sle wing_area wing_slat_chord_ratio wing_taper_ratio wing_slat_span_ratio wing_thickness_to_chord_root wing_span fuselage_avg_diameter wing_center_chord := by
    unfold sle body_to_span_ratio
    have := mul_pos (mul_pos (div_pos (mul_pos hs ha) (show 0 < 1 + wing_taper_ratio by linarith)) hr) h8
    exact this
  refine deriv_as (slat_pow (sle_chain (btsr_cw wing_thickness_to_chord_root wing_span fuselage_avg_diameter wing_center_chord hu) wing_slat_chord_ratio wing_area wing_taper_ratio wing_slat_span_ratio) hk) (fun _ => rfl) ?_
  simp only [J_slat_mass__fuselage_avg_diameter, sle_2, body_to_span_ratio_2, u1, dsle_dbtsr, dbtsr_dcw]
  ring

/-- the declared derivative of `slat_mass` by `wing_center_chord` is right,
aviary/subsystems/mass/gasp_based/fixed.py:1353-2146 -/
theorem slat_wing_center_chord (wing_area wing_slat_chord_ratio wing_taper_ratio wing_slat_span_ratio wing_thickness_to_chord_root wing_span fuselage_avg_diameter wing_center_chord : ℝ)
    (hl : 0 < wing_taper_ratio)
    (ht : 0 < wing_thickness_to_chord_root)
    (hc : 0 < wing_center_chord)
    (hd : 0 < fuselage_avg_diameter - (wing_thickness_to_chord_root * wing_center_chord))
    (hb : 0 < wing_span)
    (hs : 0 < wing_slat_chord_ratio)
    (ha : 0 < wing_area)
    (hr : 0 < wing_slat_span_ratio)
    (h8 : 0 < 2 - ((1 - wing_taper_ratio) * ((99 / 100) + (((2 * (sqrt ((wing_thickness_to_chord_root * wing_center_chord) * (fuselage_avg_diameter - (wing_thickness_to_chord_root * wing_center_chord))))) + (2 / 5)) / wing_span)))) :
    HasDerivAt (fun y => out_slat_mass wing_area wing_slat_chord_ratio wing_taper_ratio wing_slat_span_ratio wing_thickness_to_chord_root wing_span fuselage_avg_diameter y)
      (J_slat_mass__wing_center_chord wing_area wing_slat_chord_ratio wing_taper_ratio wing_slat_span_ratio wing_thickness_to_chord_root wing_span fuselage_avg_diameter wing_center_chord) wing_center_chord := by
  have hu : 0 < (wing_thickness_to_chord_root * wing_center_chord) * (fuselage_avg_diameter - wing_thickness_to_chord_root * wing_center_chord) := mul_pos (mul_pos ht hc) hd
  have hk : 0 < sle wing_area wing_slat_chord_ratio wing_taper_ratio wing_slat_span_ratio wing_thickness_to_chord_root wing_span fuselage_avg_diameter wing_center_chord := by
    unfold sle body_to_span_ratio
    have := mul_pos (mul_pos (div_pos (mul_pos hs ha) (show 0 < 1 + wing_taper_ratio by linarith)) hr) h8
    exact this
  refine deriv_as (slat_pow (sle_chain (btsr_cc wing_thickness_to_chord_root wing_span fuselage_avg_diameter wing_center_chord hu) wing_slat_chord_ratio wing_area wing_taper_ratio wing_slat_span_ratio) hk) (fun _ => rfl) ?_
  simp only [J_slat_mass__wing_center_chord, sle_2, body_to_span_ratio_2, u1, dsle_dbtsr, dbtsr_dcc]
  ring

/-- the declared derivative of `slat_mass` by `wing_thickness_to_chord_root` is right,
aviary/subsystems/mass/gasp_based/fixed.py:1353-2146 -/
theorem slat_wing_thickness_to_chord_root (wing_area wing_slat_chord_ratio wing_taper_ratio wing_slat_span_ratio wing_thickness_to_chord_root wing_span fuselage_avg_diameter wing_center_chord : ℝ)
    (hl : 0 < wing_taper_ratio)
    (ht : 0 < wing_thickness_to_chord_root)
    (hc : 0 < wing_center_chord)
    (hd : 0 < fuselage_avg_diameter - (wing_thickness_to_chord_root * wing_center_chord))
    (hb : 0 < wing_span)
    (hs : 0 < wing_slat_chord_ratio)
    (ha : 0 < wing_area)
    (hr : 0 < wing_slat_span_ratio)
    (h8 : 0 < 2 - ((1 - wing_taper_ratio) * ((99 / 100) + (((2 * (sqrt ((wing_thickness_to_chord_root * wing_center_chord) * (fuselage_avg_diameter - (wing_thickness_to_chord_root * wing_center_chord))))) + (2 / 5)) / wing_span)))) :
    HasDerivAt (fun y => out_slat_mass wing_area wing_slat_chord_ratio wing_taper_ratio wing_slat_span_ratio y wing_span fuselage_avg_diameter wing_center_chord)
      (J_slat_mass__wing_thickness_to_chord_root wing_area wing_slat_chord_ratio wing_taper_ratio wing_slat_span_ratio wing_thickness_to_chord_root wing_span fuselage_avg_diameter wing_center_chord) wing_thickness_to_chord_root := by
  have hu : 0 < (wing_thickness_to_chord_root * wing_center_chord) * (fuselage_avg_diameter - wing_thickness_to_chord_root * wing_center_chord) := mul_pos (mul_pos ht hc) hd
  have hk : 0 < sle wing_area wing_slat_chord_ratio wing_taper_ratio wing_slat_span_ratio wing_thickness_to_chord_root wing_span fuselage_avg_diameter wing_center_chord := by
    unfold sle body_to_span_ratio
    have := mul_pos (mul_pos (div_pos (mul_pos hs ha) (show 0 < 1 + wing_taper_ratio by linarith)) hr) h8
    exact this
  refine deriv_as (slat_pow (sle_chain (btsr_tc wing_thickness_to_chord_root wing_span fuselage_avg_diameter wing_center_chord hu) wing_slat_chord_ratio wing_area wing_taper_ratio wing_slat_span_ratio) hk) (fun _ => rfl) ?_
  simp only [J_slat_mass__wing_thickness_to_chord_root, sle_2, body_to_span_ratio_2, u1, dsle_dbtsr, dbtsr_dtcrr]
  ring

/-- the declared derivative of `flap_mass` by `fuselage_avg_diameter` is right,
aviary/subsystems/mass/gasp_based/fixed.py:1353-2146 -/
theorem flap_fuselage_avg_diameter (wing_num_flap_segments sea_level_density wing_high_lift_mass_coefficient wing_area wing_flap_chord_ratio wing_taper_ratio wing_flap_span_ratio design_wing_loading wing_thickness_to_chord_root wing_span fuselage_avg_diameter wing_center_chord landing_lift_coefficient_max : ℝ)
    (hl : 0 < wing_taper_ratio)
    (ht : 0 < wing_thickness_to_chord_root)
    (hc : 0 < wing_center_chord)
    (hd : 0 < fuselage_avg_diameter - (wing_thickness_to_chord_root * wing_center_chord))
    (hb : 0 < wing_span)
    (hq : 0 < sea_level_density)
    (hm : 0 < landing_lift_coefficient_max)
    (hg : 0 < design_wing_loading)
    (hn : 0 < wing_num_flap_segments)
    (hf : 0 < sflap wing_area wing_flap_chord_ratio wing_taper_ratio wing_flap_span_ratio wing_thickness_to_chord_root wing_span fuselage_avg_diameter wing_center_chord) :
    HasDerivAt (fun y => out_flap_mass wing_num_flap_segments sea_level_density wing_high_lift_mass_coefficient wing_area wing_flap_chord_ratio wing_taper_ratio wing_flap_span_ratio design_wing_loading wing_thickness_to_chord_root wing_span y wing_center_chord landing_lift_coefficient_max)
      (J_flap_mass__fuselage_avg_diameter wing_num_flap_segments sea_level_density wing_high_lift_mass_coefficient wing_area wing_flap_chord_ratio wing_taper_ratio wing_flap_span_ratio design_wing_loading wing_thickness_to_chord_root wing_span fuselage_avg_diameter wing_center_chord landing_lift_coefficient_max) fuselage_avg_diameter := by
  have hu : 0 < (wing_thickness_to_chord_root * wing_center_chord) * (fuselage_avg_diameter - wing_thickness_to_chord_root * wing_center_chord) := mul_pos (mul_pos ht hc) hd
  refine deriv_as (fowler_pow (sflap_chain (btsr_cw wing_thickness_to_chord_root wing_span fuselage_avg_diameter wing_center_chord hu) wing_flap_chord_ratio wing_area wing_taper_ratio wing_flap_span_ratio (by linarith)) hf (wing_high_lift_mass_coefficient * (vflap sea_level_density design_wing_loading landing_lift_coefficient_max / 100) ^ ((119 / 50) : ℝ)) (wing_num_flap_segments ^ ((119 / 200) : ℝ))) (fun _ => rfl) ?_
  simp only [J_flap_mass__fuselage_avg_diameter, sflap_2, sflap, body_to_span_ratio, body_to_span_ratio_2, u1, dsflap_dbtsr, dbtsr_dcw, vflap, vflap_2, vstall, u2]
  ring

/-- the declared derivative of `flap_mass` by `wing_center_chord` is right,
aviary/subsystems/mass/gasp_based/fixed.py:1353-2146 -/
theorem flap_wing_center_chord (wing_num_flap_segments sea_level_density wing_high_lift_mass_coefficient wing_area wing_flap_chord_ratio wing_taper_ratio wing_flap_span_ratio design_wing_loading wing_thickness_to_chord_root wing_span fuselage_avg_diameter wing_center_chord landing_lift_coefficient_max : ℝ)
    (hl : 0 < wing_taper_ratio)
    (ht : 0 < wing_thickness_to_chord_root)
    (hc : 0 < wing_center_chord)
    (hd : 0 < fuselage_avg_diameter - (wing_thickness_to_chord_root * wing_center_chord))
    (hb : 0 < wing_span)
    (hq : 0 < sea_level_density)
    (hm : 0 < landing_lift_coefficient_max)
    (hg : 0 < design_wing_loading)
    (hn : 0 < wing_num_flap_segments)
    (hf : 0 < sflap wing_area wing_flap_chord_ratio wing_taper_ratio wing_flap_span_ratio wing_thickness_to_chord_root wing_span fuselage_avg_diameter wing_center_chord) :
    HasDerivAt (fun y => out_flap_mass wing_num_flap_segments sea_level_density wing_high_lift_mass_coefficient wing_area wing_flap_chord_ratio wing_taper_ratio wing_flap_span_ratio design_wing_loading wing_thickness_to_chord_root wing_span fuselage_avg_diameter y landing_lift_coefficient_max)
      (J_flap_mass__wing_center_chord wing_num_flap_segments sea_level_density wing_high_lift_mass_coefficient wing_area wing_flap_chord_ratio wing_taper_ratio wing_flap_span_ratio design_wing_loading wing_thickness_to_chord_root wing_span fuselage_avg_diameter wing_center_chord landing_lift_coefficient_max) wing_center_chord := by
  have hu : 0 < (wing_thickness_to_chord_root * wing_center_chord) * (fuselage_avg_diameter - wing_thickness_to_chord_root * wing_center_chord) := mul_pos (mul_pos ht hc) hd
  refine deriv_as (fowler_pow (sflap_chain (btsr_cc wing_thickness_to_chord_root wing_span fuselage_avg_diameter wing_center_chord hu) wing_flap_chord_ratio wing_area wing_taper_ratio wing_flap_span_ratio (by linarith)) hf (wing_high_lift_mass_coefficient * (vflap sea_level_density design_wing_loading landing_lift_coefficient_max / 100) ^ ((119 / 50) : ℝ)) (wing_num_flap_segments ^ ((119 / 200) : ℝ))) (fun _ => rfl) ?_
  simp only [J_flap_mass__wing_center_chord, sflap_2, sflap, body_to_span_ratio, body_to_span_ratio_2, u1, dsflap_dbtsr, dbtsr_dcc, vflap, vflap_2, vstall, u2]
  ring

/-- the declared derivative of `flap_mass` by `wing_span` is right,
aviary/subsystems/mass/gasp_based/fixed.py:1353-2146 -/
theorem flap_wing_span (wing_num_flap_segments sea_level_density wing_high_lift_mass_coefficient wing_area wing_flap_chord_ratio wing_taper_ratio wing_flap_span_ratio design_wing_loading wing_thickness_to_chord_root wing_span fuselage_avg_diameter wing_center_chord landing_lift_coefficient_max : ℝ)
    (hl : 0 < wing_taper_ratio)
    (ht : 0 < wing_thickness_to_chord_root)
    (hc : 0 < wing_center_chord)
    (hd : 0 < fuselage_avg_diameter - (wing_thickness_to_chord_root * wing_center_chord))
    (hb : 0 < wing_span)
    (hq : 0 < sea_level_density)
    (hm : 0 < landing_lift_coefficient_max)
    (hg : 0 < design_wing_loading)
    (hn : 0 < wing_num_flap_segments)
    (hf : 0 < sflap wing_area wing_flap_chord_ratio wing_taper_ratio wing_flap_span_ratio wing_thickness_to_chord_root wing_span fuselage_avg_diameter wing_center_chord) :
    HasDerivAt (fun y => out_flap_mass wing_num_flap_segments sea_level_density wing_high_lift_mass_coefficient wing_area wing_flap_chord_ratio wing_taper_ratio wing_flap_span_ratio design_wing_loading wing_thickness_to_chord_root y fuselage_avg_diameter wing_center_chord landing_lift_coefficient_max)
      (J_flap_mass__wing_span wing_num_flap_segments sea_level_density wing_high_lift_mass_coefficient wing_area wing_flap_chord_ratio wing_taper_ratio wing_flap_span_ratio design_wing_loading wing_thickness_to_chord_root wing_span fuselage_avg_diameter wing_center_chord landing_lift_coefficient_max) wing_span := by
  refine deriv_as (fowler_pow (sflap_chain (btsr_span wing_thickness_to_chord_root wing_span fuselage_avg_diameter wing_center_chord hb.ne') wing_flap_chord_ratio wing_area wing_taper_ratio wing_flap_span_ratio (by linarith)) hf (wing_high_lift_mass_coefficient * (vflap sea_level_density design_wing_loading landing_lift_coefficient_max / 100) ^ ((119 / 50) : ℝ)) (wing_num_flap_segments ^ ((119 / 200) : ℝ))) (fun _ => rfl) ?_
  simp only [J_flap_mass__wing_span, sflap_2, sflap, body_to_span_ratio, body_to_span_ratio_2, u1, dsflap_dbtsr, dbtsr_dwingspan, vflap, vflap_2, vstall, u2]
  ring

/-- the declared derivative of `flap_mass` by `wing_thickness_to_chord_root` is right,
aviary/subsystems/mass/gasp_based/fixed.py:1353-2146 -/
theorem flap_wing_thickness_to_chord_root (wing_num_flap_segments sea_level_density wing_high_lift_mass_coefficient wing_area wing_flap_chord_ratio wing_taper_ratio wing_flap_span_ratio design_wing_loading wing_thickness_to_chord_root wing_span fuselage_avg_diameter wing_center_chord landing_lift_coefficient_max : ℝ)
    (hl : 0 < wing_taper_ratio)
    (ht : 0 < wing_thickness_to_chord_root)
    (hc : 0 < wing_center_chord)
    (hd : 0 < fuselage_avg_diameter - (wing_thickness_to_chord_root * wing_center_chord))
    (hb : 0 < wing_span)
    (hq : 0 < sea_level_density)
    (hm : 0 < landing_lift_coefficient_max)
    (hg : 0 < design_wing_loading)
    (hn : 0 < wing_num_flap_segments)
    (hf : 0 < sflap wing_area wing_flap_chord_ratio wing_taper_ratio wing_flap_span_ratio wing_thickness_to_chord_root wing_span fuselage_avg_diameter wing_center_chord) :
    HasDerivAt (fun y => out_flap_mass wing_num_flap_segments sea_level_density wing_high_lift_mass_coefficient wing_area wing_flap_chord_ratio wing_taper_ratio wing_flap_span_ratio design_wing_loading y wing_span fuselage_avg_diameter wing_center_chord landing_lift_coefficient_max)
      (J_flap_mass__wing_thickness_to_chord_root wing_num_flap_segments sea_level_density wing_high_lift_mass_coefficient wing_area wing_flap_chord_ratio wing_taper_ratio wing_flap_span_ratio design_wing_loading wing_thickness_to_chord_root wing_span fuselage_avg_diameter wing_center_chord landing_lift_coefficient_max) wing_thickness_to_chord_root := by
  have hu : 0 < (wing_thickness_to_chord_root * wing_center_chord) * (fuselage_avg_diameter - wing_thickness_to_chord_root * wing_center_chord) := mul_pos (mul_pos ht hc) hd
  refine deriv_as (fowler_pow (sflap_chain (btsr_tc wing_thickness_to_chord_root wing_span fuselage_avg_diameter wing_center_chord hu) wing_flap_chord_ratio wing_area wing_taper_ratio wing_flap_span_ratio (by linarith)) hf (wing_high_lift_mass_coefficient * (vflap sea_level_density design_wing_loading landing_lift_coefficient_max / 100) ^ ((119 / 50) : ℝ)) (wing_num_flap_segments ^ ((119 / 200) : ℝ))) (fun _ => rfl) ?_
  simp only [J_flap_mass__wing_thickness_to_chord_root, sflap_2, sflap, body_to_span_ratio, body_to_span_ratio_2, u1, dsflap_dbtsr, dbtsr_dtcrr, vflap, vflap_2, vstall, u2]
  ring

/-- the declared derivative of `wing_high_lift_mass` by `fuselage_avg_diameter` is right,
aviary/subsystems/mass/gasp_based/fixed.py:1353-2146 -/
theorem all_fuselage_avg_diameter (wing_num_flap_segments sea_level_density wing_high_lift_mass_coefficient wing_area wing_slat_chord_ratio wing_flap_chord_ratio wing_taper_ratio wing_flap_span_ratio wing_slat_span_ratio design_wing_loading wing_thickness_to_chord_root wing_span fuselage_avg_diameter wing_center_chord landing_lift_coefficient_max : ℝ)
    (hl : 0 < wing_taper_ratio)
    (ht : 0 < wing_thickness_to_chord_root)
    (hc : 0 < wing_center_chord)
    (hd : 0 < fuselage_avg_diameter - (wing_thickness_to_chord_root * wing_center_chord))
    (hb : 0 < wing_span)
    (hs : 0 < wing_slat_chord_ratio)
    (ha : 0 < wing_area)
    (hr : 0 < wing_slat_span_ratio)
    (h8 : 0 < 2 - ((1 - wing_taper_ratio) * ((99 / 100) + (((2 * (sqrt ((wing_thickness_to_chord_root * wing_center_chord) * (fuselage_avg_diameter - (wing_thickness_to_chord_root * wing_center_chord))))) + (2 / 5)) / wing_span))))
    (hq : 0 < sea_level_density)
    (hm : 0 < landing_lift_coefficient_max)
    (hg : 0 < design_wing_loading)
    (hn : 0 < wing_num_flap_segments)
    (hf : 0 < sflap wing_area wing_flap_chord_ratio wing_taper_ratio wing_flap_span_ratio wing_thickness_to_chord_root wing_span fuselage_avg_diameter wing_center_chord) :
    HasDerivAt (fun y => out_wing_high_lift_mass wing_num_flap_segments sea_level_density wing_high_lift_mass_coefficient wing_area wing_slat_chord_ratio wing_flap_chord_ratio wing_taper_ratio wing_flap_span_ratio wing_slat_span_ratio design_wing_loading wing_thickness_to_chord_root wing_span y wing_center_chord landing_lift_coefficient_max)
      (J_wing_high_lift_mass__fuselage_avg_diameter wing_num_flap_segments sea_level_density wing_high_lift_mass_coefficient wing_area wing_slat_chord_ratio wing_flap_chord_ratio wing_taper_ratio wing_flap_span_ratio wing_slat_span_ratio design_wing_loading wing_thickness_to_chord_root wing_span fuselage_avg_diameter wing_center_chord landing_lift_coefficient_max) fuselage_avg_diameter := by
  have hu : 0 < (wing_thickness_to_chord_root * wing_center_chord) * (fuselage_avg_diameter - wing_thickness_to_chord_root * wing_center_chord) := mul_pos (mul_pos ht hc) hd
  have h1 : HasDerivAt (fun y => out_flap_mass wing_num_flap_segments sea_level_density wing_high_lift_mass_coefficient wing_area wing_flap_chord_ratio wing_taper_ratio wing_flap_span_ratio design_wing_loading wing_thickness_to_chord_root wing_span y wing_center_chord landing_lift_coefficient_max) (J_flap_mass__fuselage_avg_diameter wing_num_flap_segments sea_level_density wing_high_lift_mass_coefficient wing_area wing_flap_chord_ratio wing_taper_ratio wing_flap_span_ratio design_wing_loading wing_thickness_to_chord_root wing_span fuselage_avg_diameter wing_center_chord landing_lift_coefficient_max) fuselage_avg_diameter := by
    apply flap_fuselage_avg_diameter <;> assumption
  have h2 : HasDerivAt (fun y => out_slat_mass wing_area wing_slat_chord_ratio wing_taper_ratio wing_slat_span_ratio wing_thickness_to_chord_root wing_span y wing_center_chord) (J_slat_mass__fuselage_avg_diameter wing_area wing_slat_chord_ratio wing_taper_ratio wing_slat_span_ratio wing_thickness_to_chord_root wing_span fuselage_avg_diameter wing_center_chord) fuselage_avg_diameter := by
    apply slat_fuselage_avg_diameter <;> assumption
  exact deriv_as (h1.add h2) (fun _ => rfl) rfl

/-- the declared derivative of `wing_high_lift_mass` by `wing_center_chord` is right,
aviary/subsystems/mass/gasp_based/fixed.py:1353-2146 -/
theorem all_wing_center_chord (wing_num_flap_segments sea_level_density wing_high_lift_mass_coefficient wing_area wing_slat_chord_ratio wing_flap_chord_ratio wing_taper_ratio wing_flap_span_ratio wing_slat_span_ratio design_wing_loading wing_thickness_to_chord_root wing_span fuselage_avg_diameter wing_center_chord landing_lift_coefficient_max : ℝ)
    (hl : 0 < wing_taper_ratio)
    (ht : 0 < wing_thickness_to_chord_root)
    (hc : 0 < wing_center_chord)
    (hd : 0 < fuselage_avg_diameter - (wing_thickness_to_chord_root * wing_center_chord))
    (hb : 0 < wing_span)
    (hs : 0 < wing_slat_chord_ratio)
    (ha : 0 < wing_area)
    (hr : 0 < wing_slat_span_ratio)
    (h8 : 0 < 2 - ((1 - wing_taper_ratio) * ((99 / 100) + (((2 * (sqrt ((wing_thickness_to_chord_root * wing_center_chord) * (fuselage_avg_diameter - (wing_thickness_to_chord_root * wing_center_chord))))) + (2 / 5)) / wing_span))))
    (hq : 0 < sea_level_density)
    (hm : 0 < landing_lift_coefficient_max)
    (hg : 0 < design_wing_loading)
    (hn : 0 < wing_num_flap_segments)
    (hf : 0 < sflap wing_area wing_flap_chord_ratio wing_taper_ratio wing_flap_span_ratio wing_thickness_to_chord_root wing_span fuselage_avg_diameter wing_center_chord) :
    HasDerivAt (fun y => out_wing_high_lift_mass wing_num_flap_segments sea_level_density wing_high_lift_mass_coefficient wing_area wing_slat_chord_ratio wing_flap_chord_ratio wing_taper_ratio wing_flap_span_ratio wing_slat_span_ratio design_wing_loading wing_thickness_to_chord_root wing_span fuselage_avg_diameter y landing_lift_coefficient_max)
      (J_wing_high_lift_mass__wing_center_chord wing_num_flap_segments sea_level_density wing_high_lift_mass_coefficient wing_area wing_slat_chord_ratio wing_flap_chord_ratio wing_taper_ratio wing_flap_span_ratio wing_slat_span_ratio design_wing_loading wing_thickness_to_chord_root wing_span fuselage_avg_diameter wing_center_chord landing_lift_coefficient_max) wing_center_chord := by
  have hu : 0 < (wing_thickness_to_chord_root * wing_center_chord) * (fuselage_avg_diameter - wing_thickness_to_chord_root * wing_center_chord) := mul_pos (mul_pos ht hc) hd
  have h1 : HasDerivAt (fun y => out_flap_mass wing_num_flap_segments sea_level_density wing_high_lift_mass_coefficient wing_area wing_flap_chord_ratio wing_taper_ratio wing_flap_span_ratio design_wing_loading wing_thickness_to_chord_root wing_span fuselage_avg_diameter y landing_lift_coefficient_max) (J_flap_mass__wing_center_chord wing_num_flap_segments sea_level_density wing_high_lift_mass_coefficient wing_area wing_flap_chord_ratio wing_taper_ratio wing_flap_span_ratio design_wing_loading wing_thickness_to_chord_root wing_span fuselage_avg_diameter wing_center_chord landing_lift_coefficient_max) wing_center_chord := by
    apply flap_wing_center_chord <;> assumption
  have h2 : HasDerivAt (fun y => out_slat_mass wing_area wing_slat_chord_ratio wing_taper_ratio wing_slat_span_ratio wing_thickness_to_chord_root wing_span fuselage_avg_diameter y) (J_slat_mass__wing_center_chord wing_area wing_slat_chord_ratio wing_taper_ratio wing_slat_span_ratio wing_thickness_to_chord_root wing_span fuselage_avg_diameter wing_center_chord) wing_center_chord := by
    apply slat_wing_center_chord <;> assumption
  exact deriv_as (h1.add h2) (fun _ => rfl) rfl

/-- the declared derivative of `wing_high_lift_mass` by `wing_span` is right,
aviary/subsystems/mass/gasp_based/fixed.py:1353-2146 -/
theorem all_wing_span (wing_num_flap_segments sea_level_density wing_high_lift_mass_coefficient wing_area wing_slat_chord_ratio wing_flap_chord_ratio wing_taper_ratio wing_flap_span_ratio wing_slat_span_ratio design_wing_loading wing_thickness_to_chord_root wing_span fuselage_avg_diameter wing_center_chord landing_lift_coefficient_max : ℝ)
    (hl : 0 < wing_taper_ratio)
    (ht : 0 < wing_thickness_to_chord_root)
    (hc : 0 < wing_center_chord)
    (hd : 0 < fuselage_avg_diameter - (wing_thickness_to_chord_root * wing_center_chord))
    (hb : 0 < wing_span)
    (hs : 0 < wing_slat_chord_ratio)
    (ha : 0 < wing_area)
    (hr : 0 < wing_slat_span_ratio)
    (h8 : 0 < 2 - ((1 - wing_taper_ratio) * ((99 / 100) + (((2 * (sqrt ((wing_thickness_to_chord_root * wing_center_chord) * (fuselage_avg_diameter - (wing_thickness_to_chord_root * wing_center_chord))))) + (2 / 5)) / wing_span))))
    (hq : 0 < sea_level_density)
    (hm : 0 < landing_lift_coefficient_max)
    (hg : 0 < design_wing_loading)
    (hn : 0 < wing_num_flap_segments)
    (hf : 0 < sflap wing_area wing_flap_chord_ratio wing_taper_ratio wing_flap_span_ratio wing_thickness_to_chord_root wing_span fuselage_avg_diameter wing_center_chord) :
    HasDerivAt (fun y => out_wing_high_lift_mass wing_num_flap_segments sea_level_density wing_high_lift_mass_coefficient wing_area wing_slat_chord_ratio wing_flap_chord_ratio wing_taper_ratio wing_flap_span_ratio wing_slat_span_ratio design_wing_loading wing_thickness_to_chord_root y fuselage_avg_diameter wing_center_chord landing_lift_coefficient_max)
      (J_wing_high_lift_mass__wing_span wing_num_flap_segments sea_level_density wing_high_lift_mass_coefficient wing_area wing_slat_chord_ratio wing_flap_chord_ratio wing_taper_ratio wing_flap_span_ratio wing_slat_span_ratio design_wing_loading wing_thickness_to_chord_root wing_span fuselage_avg_diameter wing_center_chord landing_lift_coefficient_max) wing_span := by
  have h1 : HasDerivAt (fun y => out_flap_mass wing_num_flap_segments sea_level_density wing_high_lift_mass_coefficient wing_area wing_flap_chord_ratio wing_taper_ratio wing_flap_span_ratio design_wing_loading wing_thickness_to_chord_root y fuselage_avg_diameter wing_center_chord landing_lift_coefficient_max) (J_flap_mass__wing_span wing_num_flap_segments sea_level_density wing_high_lift_mass_coefficient wing_area wing_flap_chord_ratio wing_taper_ratio wing_flap_span_ratio design_wing_loading wing_thickness_to_chord_root wing_span fuselage_avg_diameter wing_center_chord landing_lift_coefficient_max) wing_span := by
    apply flap_wing_span <;> assumption
  have h2 : HasDerivAt (fun y => out_slat_mass wing_area wing_slat_chord_ratio wing_taper_ratio wing_slat_span_ratio wing_thickness_to_chord_root y fuselage_avg_diameter wing_center_chord) (J_slat_mass__wing_span wing_area wing_slat_chord_ratio wing_taper_ratio wing_slat_span_ratio wing_thickness_to_chord_root wing_span fuselage_avg_diameter wing_center_chord) wing_span := by
    apply d_slat_mass__wing_span <;> assumption
  exact deriv_as (h1.add h2) (fun _ => rfl) rfl

/-- the declared derivative of `wing_high_lift_mass` by `wing_thickness_to_chord_root` is right,
aviary/subsystems/mass/gasp_based/fixed.py:1353-2146 -/
theorem all_wing_thickness_to_chord_root (wing_num_flap_segments sea_level_density wing_high_lift_mass_coefficient wing_area wing_slat_chord_ratio wing_flap_chord_ratio wing_taper_ratio wing_flap_span_ratio wing_slat_span_ratio design_wing_loading wing_thickness_to_chord_root wing_span fuselage_avg_diameter wing_center_chord landing_lift_coefficient_max : ℝ)
    (hl : 0 < wing_taper_ratio)
    (ht : 0 < wing_thickness_to_chord_root)
    (hc : 0 < wing_center_chord)
    (hd : 0 < fuselage_avg_diameter - (wing_thickness_to_chord_root * wing_center_chord))
    (hb : 0 < wing_span)
    (hs : 0 < wing_slat_chord_ratio)
    (ha : 0 < wing_area)
    (hr : 0 < wing_slat_span_ratio)
    (h8 : 0 < 2 - ((1 - wing_taper_ratio) * ((99 / 100) + (((2 * (sqrt ((wing_thickness_to_chord_root * wing_center_chord) * (fuselage_avg_diameter - (wing_thickness_to_chord_root * wing_center_chord))))) + (2 / 5)) / wing_span))))
    (hq : 0 < sea_level_density)
    (hm : 0 < landing_lift_coefficient_max)
    (hg : 0 < design_wing_loading)
    (hn : 0 < wing_num_flap_segments)
    (hf : 0 < sflap wing_area wing_flap_chord_ratio wing_taper_ratio wing_flap_span_ratio wing_thickness_to_chord_root wing_span fuselage_avg_diameter wing_center_chord) :
    HasDerivAt (fun y => out_wing_high_lift_mass wing_num_flap_segments sea_level_density wing_high_lift_mass_coefficient wing_area wing_slat_chord_ratio wing_flap_chord_ratio wing_taper_ratio wing_flap_span_ratio wing_slat_span_ratio design_wing_loading y wing_span fuselage_avg_diameter wing_center_chord landing_lift_coefficient_max)
      (J_wing_high_lift_mass__wing_thickness_to_chord_root wing_num_flap_segments sea_level_density wing_high_lift_mass_coefficient wing_area wing_slat_chord_ratio wing_flap_chord_ratio wing_taper_ratio wing_flap_span_ratio wing_slat_span_ratio design_wing_loading wing_thickness_to_chord_root wing_span fuselage_avg_diameter wing_center_chord landing_lift_coefficient_max) wing_thickness_to_chord_root := by
  have hu : 0 < (wing_thickness_to_chord_root * wing_center_chord) * (fuselage_avg_diameter - wing_thickness_to_chord_root * wing_center_chord) := mul_pos (mul_pos ht hc) hd
  have h1 : HasDerivAt (fun y => out_flap_mass wing_num_flap_segments sea_level_density wing_high_lift_mass_coefficient wing_area wing_flap_chord_ratio wing_taper_ratio wing_flap_span_ratio design_wing_loading y wing_span fuselage_avg_diameter wing_center_chord landing_lift_coefficient_max) (J_flap_mass__wing_thickness_to_chord_root wing_num_flap_segments sea_level_density wing_high_lift_mass_coefficient wing_area wing_flap_chord_ratio wing_taper_ratio wing_flap_span_ratio design_wing_loading wing_thickness_to_chord_root wing_span fuselage_avg_diameter wing_center_chord landing_lift_coefficient_max) wing_thickness_to_chord_root := by
    apply flap_wing_thickness_to_chord_root <;> assumption
  have h2 : HasDerivAt (fun y => out_slat_mass wing_area wing_slat_chord_ratio wing_taper_ratio wing_slat_span_ratio y wing_span fuselage_avg_diameter wing_center_chord) (J_slat_mass__wing_thickness_to_chord_root wing_area wing_slat_chord_ratio wing_taper_ratio wing_slat_span_ratio wing_thickness_to_chord_root wing_span fuselage_avg_diameter wing_center_chord) wing_thickness_to_chord_root := by
    apply slat_wing_thickness_to_chord_root <;> assumption
  exact deriv_as (h1.add h2) (fun _ => rfl) rfl

end doubleslottedfowler

/-- the powers of 160 on either side of the switch of the split flap -/
theorem power_160 : (17005 : ℝ) * 160 ^ ((2733 / 10000) : ℝ) ≤ 160 ^ ((439 / 200) : ℝ) := by
  have e : (160 : ℝ) ^ ((439 / 200) : ℝ)
      = 160 ^ ((19217 / 10000) : ℝ) * 160 ^ ((2733 / 10000) : ℝ) := by
    rw [← rpow_add (by norm_num)]; norm_num
  have h1 : (160 : ℝ) ^ ((48 / 25) : ℝ) ≤ 160 ^ ((19217 / 10000) : ℝ) :=
    rpow_le_rpow_of_exponent_le (by norm_num) (by norm_num)
  have h2 : (160 : ℝ) ^ ((48 / 25) : ℝ) = ((160 : ℝ) ^ 48) ^ ((25 : ℕ) : ℝ)⁻¹ := by
    rw [← rpow_natCast, ← rpow_mul (by norm_num)]; norm_num
  have h3 : (17005 : ℝ) = ((17005 : ℝ) ^ 25) ^ ((25 : ℕ) : ℝ)⁻¹ :=
    (pow_rpow_inv_natCast (by norm_num) (by norm_num)).symm
  have h4 : (17005 : ℝ) ≤ 160 ^ ((48 / 25) : ℝ) := by
    rw [h2, h3]
    exact rpow_le_rpow (by positivity) (by norm_num) (by positivity)
  rw [e]
  exact mul_le_mul_of_nonneg_right (h4.trans h1) (by positivity)

/-- the mass of a split flap jumps: whatever wing loading exceeds the one at which the flap speed
is 160 knots, the mass is more than two percent above the mass there,
aviary/subsystems/mass/gasp_based/fixed.py:1489-1497 -/
theorem split.flap_jump_violated
    (q c a fc l fs w0 w1 t b d cc m : ℝ) (hq : 0 < q) (hm : 0 < m) (hw : 0 < w0) (hc : 0 < c)
    (hS : 0 < Verif.Comp.MassGaspBasedFixed.HighLiftMass_split.sflap a fc l fs t b d cc)
    (hV : Verif.Comp.MassGaspBasedFixed.HighLiftMass_split.vflap q w0 m = 160) (h : w0 < w1) :
    102 / 100 * Verif.Comp.MassGaspBasedFixed.HighLiftMass_split.out_flap_mass q c a fc l fs w0 t b d cc m
      < Verif.Comp.MassGaspBasedFixed.HighLiftMass_split.out_flap_mass q c a fc l fs w1 t b d cc m := by
  have hV1 : 160 < Verif.Comp.MassGaspBasedFixed.HighLiftMass_split.vflap q w1 m := by
    rw [← hV]
    unfold Verif.Comp.MassGaspBasedFixed.HighLiftMass_split.vflap Verif.Comp.MassGaspBasedFixed.HighLiftMass_split.vstall
    have : √(2 * w0 / (q * m)) < √(2 * w1 / (q * m)) := by
      apply sqrt_lt_sqrt (by positivity)
      gcongr
    linarith
  unfold Verif.Comp.MassGaspBasedFixed.HighLiftMass_split.out_flap_mass
  rw [if_pos hV1, hV, if_neg (lt_irrefl _)]
  generalize Verif.Comp.MassGaspBasedFixed.HighLiftMass_split.sflap a fc l fs t b d cc = S at *
  generalize Verif.Comp.MassGaspBasedFixed.HighLiftMass_split.vflap q w1 m = v at *
  have h1 : (160 : ℝ) ^ ((439 / 200) : ℝ) < v ^ ((439 / 200) : ℝ) :=
    rpow_lt_rpow (by norm_num) hV1 (by norm_num)
  have h2 := power_160
  have hp : (0 : ℝ) < 160 ^ ((2733 / 10000) : ℝ) := by positivity
  have hcs : 0 < c * S := mul_pos hc hS
  have h3 : 102 / 100 * (369 / 1000) * (160 : ℝ) ^ ((2733 / 10000) : ℝ)
      < v ^ ((439 / 200) : ℝ) / 45180 := by
    rw [lt_div_iff₀ (by norm_num)]
    nlinarith
  have h4 := mul_lt_mul_of_pos_left h3 hcs
  calc _ = c * S * (102 / 100 * (369 / 1000) * (160 : ℝ) ^ ((2733 / 10000) : ℝ)) := by ring
    _ < _ := h4
    _ = _ := by ring

example : (1 : ℝ) + Verif.Comp.MassFlopsBasedWingCommon.WingBendingMass.w1nir 1 1 1 1 0 0 0 1 0
    ≠ 0 := by
  simp only [Verif.Comp.MassFlopsBasedWingCommon.WingBendingMass.w1nir,
    Verif.Comp.MassFlopsBasedWingCommon.WingBendingMass.vfact,
    Verif.Comp.MassFlopsBasedWingCommon.WingBendingMass.cayf]
  norm_num

example : √((1 / 10 * 20 : ℝ) * (10 - 1 / 10 * 20)) = 4 := by
  rw [show (1 / 10 * 20 : ℝ) * (10 - 1 / 10 * 20) = 4 ^ 2 by norm_num]
  exact sqrt_sq (by norm_num)

/-- a wing with Fowler flaps meets all the assumptions -/
example : ∃ J : ℝ, HasDerivAt (fun y =>
    Verif.Comp.MassGaspBasedFixed.HighLiftMass_fowler.out_wing_high_lift_mass 2 (2 / 1000) 2 1000
      (1 / 10) (1 / 5) (1 / 2) (3 / 5) (4 / 5) 100 (1 / 10) y 10 20 2) J 100 := by
  have e : √((1 / 10 * 20 : ℝ) * (10 - 1 / 10 * 20)) = 4 := by
    rw [show (1 / 10 * 20 : ℝ) * (10 - 1 / 10 * 20) = 4 ^ 2 by norm_num]
    exact sqrt_sq (by norm_num)
  refine ⟨_, fowler.all_wing_span 2 (2 / 1000) 2 1000 (1 / 10) (1 / 5) (1 / 2) (3 / 5) (4 / 5) 100
    (1 / 10) 100 10 20 2 (by norm_num) (by norm_num) (by norm_num) (by norm_num) (by norm_num)
    (by norm_num) (by norm_num) (by norm_num) (by rw [e]; norm_num) (by norm_num) (by norm_num)
    (by norm_num) (by norm_num) ?_⟩
  unfold Verif.Comp.MassGaspBasedFixed.HighLiftMass_fowler.sflap
    Verif.Comp.MassGaspBasedFixed.HighLiftMass_fowler.body_to_span_ratio
  rw [e]
  norm_num

end Verif.WingEntries
