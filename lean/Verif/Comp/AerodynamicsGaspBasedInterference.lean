import Verif.Lemmas.CompDeriv

/-! # Partial derivatives of the components of `aviary/subsystems/aerodynamics/gasp_based/interference.py`

One node of a vector component is modelled over the real numbers.  Each option that selects a
branch is fixed, one namespace per choice.  `out_x` is the output `x`, `J_x__y` the entry that
`compute_partials` (or `declare_partials` with `val`) assigns, `d_x__y` the proof that the entry is
the derivative.  Inputs an output does not take as argument have no influence on it.

* `WingFuselageInterferenceMission`: not proved:
  `wing_fuselage_interference_flat_plate_equivalent` by `atmosphere_kinematic_viscosity`,
  `wing_fuselage_interference_flat_plate_equivalent` by `atmosphere_mach`,
  `wing_fuselage_interference_flat_plate_equivalent` by `atmosphere_temperature` -/

set_option linter.all false

namespace Verif.Comp.AerodynamicsGaspBasedInterference.BodyRatios
open Real

/-- Output `tcbodywf` of `BodyRatios.compute`, aviary/subsystems/aerodynamics/gasp_based/interference.py:165 -/
noncomputable def out_tcbodywf (wbodywf wing_span wing_thickness_to_chord_root wing_thickness_to_chord_tip : ℝ) : ℝ :=
  wing_thickness_to_chord_root - ((wbodywf / wing_span) * (wing_thickness_to_chord_root -
    wing_thickness_to_chord_tip))

/-- Output `cbodywf` of `BodyRatios.compute`, aviary/subsystems/aerodynamics/gasp_based/interference.py:166 -/
noncomputable def out_cbodywf (wbodywf croot wing_span wing_taper_ratio : ℝ) : ℝ :=
  croot * (1 - ((wbodywf / wing_span) * (1 - wing_taper_ratio)))

/-- Partial of `tcbodywf` with respect to `wing_thickness_to_chord_root` as set by `BodyRatios`, aviary/subsystems/aerodynamics/gasp_based/interference.py:191 -/
noncomputable def J_tcbodywf__wing_thickness_to_chord_root (wbodywf wing_span : ℝ) : ℝ :=
  1 - (wbodywf / wing_span)

/-- Partial of `tcbodywf` with respect to `wbodywf` as set by `BodyRatios`, aviary/subsystems/aerodynamics/gasp_based/interference.py:192 -/
noncomputable def J_tcbodywf__wbodywf (wing_span wing_thickness_to_chord_root wing_thickness_to_chord_tip : ℝ) : ℝ :=
  ((-1) / wing_span) * (wing_thickness_to_chord_root - wing_thickness_to_chord_tip)

/-- Partial of `tcbodywf` with respect to `wing_span` as set by `BodyRatios`, aviary/subsystems/aerodynamics/gasp_based/interference.py:193 -/
noncomputable def J_tcbodywf__wing_span (wbodywf wing_span wing_thickness_to_chord_root wing_thickness_to_chord_tip : ℝ) : ℝ :=
  (wbodywf / (wing_span ^ 2)) * (wing_thickness_to_chord_root - wing_thickness_to_chord_tip)

/-- Partial of `tcbodywf` with respect to `wing_thickness_to_chord_tip` as set by `BodyRatios`, aviary/subsystems/aerodynamics/gasp_based/interference.py:194 -/
noncomputable def J_tcbodywf__wing_thickness_to_chord_tip (wbodywf wing_span : ℝ) : ℝ :=
  wbodywf / wing_span

/-- Partial of `cbodywf` with respect to `croot` as set by `BodyRatios`, aviary/subsystems/aerodynamics/gasp_based/interference.py:196 -/
noncomputable def J_cbodywf__croot (wbodywf wing_span wing_taper_ratio : ℝ) : ℝ :=
  1 - ((wbodywf / wing_span) * (1 - wing_taper_ratio))

/-- Partial of `cbodywf` with respect to `wbodywf` as set by `BodyRatios`, aviary/subsystems/aerodynamics/gasp_based/interference.py:197 -/
noncomputable def J_cbodywf__wbodywf (croot wing_span wing_taper_ratio : ℝ) : ℝ :=
  croot * (((-1) / wing_span) * (1 - wing_taper_ratio))

/-- Partial of `cbodywf` with respect to `wing_span` as set by `BodyRatios`, aviary/subsystems/aerodynamics/gasp_based/interference.py:198 -/
noncomputable def J_cbodywf__wing_span (wbodywf croot wing_span wing_taper_ratio : ℝ) : ℝ :=
  croot * ((wbodywf / (wing_span ^ 2)) * (1 - wing_taper_ratio))

/-- Partial of `cbodywf` with respect to `wing_taper_ratio` as set by `BodyRatios`, aviary/subsystems/aerodynamics/gasp_based/interference.py:199 -/
noncomputable def J_cbodywf__wing_taper_ratio (wbodywf croot wing_span : ℝ) : ℝ :=
  croot * (wbodywf / wing_span)

theorem d_tcbodywf__wbodywf (wbodywf wing_span wing_thickness_to_chord_root
    wing_thickness_to_chord_tip : ℝ) (h0 : 0 < wing_span) :
    HasDerivAt (fun t => out_tcbodywf t wing_span wing_thickness_to_chord_root wing_thickness_to_chord_tip) (J_tcbodywf__wbodywf wing_span wing_thickness_to_chord_root wing_thickness_to_chord_tip) wbodywf := by
  simp only [out_tcbodywf, J_tcbodywf__wbodywf]
  (apply hasDerivAt_of_eq; on_goal 1 => (repeat' comp_step))
  all_goals try comp_side
  all_goals try simp only [mul_zero, zero_mul, add_zero, zero_add, sub_zero, zero_sub, mul_one, one_mul]
  all_goals try push_cast
  all_goals comp_eq

theorem d_tcbodywf__wing_span (wbodywf wing_span wing_thickness_to_chord_root
    wing_thickness_to_chord_tip : ℝ) (h0 : 0 < wing_span) :
    HasDerivAt (fun t => out_tcbodywf wbodywf t wing_thickness_to_chord_root wing_thickness_to_chord_tip) (J_tcbodywf__wing_span wbodywf wing_span wing_thickness_to_chord_root wing_thickness_to_chord_tip) wing_span := by
  simp only [out_tcbodywf, J_tcbodywf__wing_span]
  (apply hasDerivAt_of_eq; on_goal 1 => (repeat' comp_step))
  all_goals try comp_side
  all_goals try simp only [mul_zero, zero_mul, add_zero, zero_add, sub_zero, zero_sub, mul_one, one_mul]
  all_goals try push_cast
  all_goals comp_eq

theorem d_tcbodywf__wing_thickness_to_chord_root (wbodywf wing_span wing_thickness_to_chord_root
    wing_thickness_to_chord_tip : ℝ) (h0 : 0 < wing_span) :
    HasDerivAt (fun t => out_tcbodywf wbodywf wing_span t wing_thickness_to_chord_tip) (J_tcbodywf__wing_thickness_to_chord_root wbodywf wing_span) wing_thickness_to_chord_root := by
  simp only [out_tcbodywf, J_tcbodywf__wing_thickness_to_chord_root]
  (apply hasDerivAt_of_eq; on_goal 1 => (repeat' comp_step))
  all_goals try comp_side
  all_goals try simp only [mul_zero, zero_mul, add_zero, zero_add, sub_zero, zero_sub, mul_one, one_mul]
  all_goals try push_cast
  all_goals comp_eq

theorem d_tcbodywf__wing_thickness_to_chord_tip (wbodywf wing_span wing_thickness_to_chord_root
    wing_thickness_to_chord_tip : ℝ) (h0 : 0 < wing_span) :
    HasDerivAt (fun t => out_tcbodywf wbodywf wing_span wing_thickness_to_chord_root t) (J_tcbodywf__wing_thickness_to_chord_tip wbodywf wing_span) wing_thickness_to_chord_tip := by
  simp only [out_tcbodywf, J_tcbodywf__wing_thickness_to_chord_tip]
  (apply hasDerivAt_of_eq; on_goal 1 => (repeat' comp_step))
  all_goals try comp_side
  all_goals try simp only [mul_zero, zero_mul, add_zero, zero_add, sub_zero, zero_sub, mul_one, one_mul]
  all_goals try push_cast
  all_goals comp_eq

theorem d_cbodywf__wbodywf (wbodywf croot wing_span wing_taper_ratio : ℝ) (h0 : 0 < wing_span) :
    HasDerivAt (fun t => out_cbodywf t croot wing_span wing_taper_ratio) (J_cbodywf__wbodywf croot wing_span wing_taper_ratio) wbodywf := by
  simp only [out_cbodywf, J_cbodywf__wbodywf]
  (apply hasDerivAt_of_eq; on_goal 1 => (repeat' comp_step))
  all_goals try comp_side
  all_goals try simp only [mul_zero, zero_mul, add_zero, zero_add, sub_zero, zero_sub, mul_one, one_mul]
  all_goals try push_cast
  all_goals comp_eq

theorem d_cbodywf__croot (wbodywf croot wing_span wing_taper_ratio : ℝ) (h0 : 0 < wing_span) :
    HasDerivAt (fun t => out_cbodywf wbodywf t wing_span wing_taper_ratio) (J_cbodywf__croot wbodywf wing_span wing_taper_ratio) croot := by
  simp only [out_cbodywf, J_cbodywf__croot]
  (apply hasDerivAt_of_eq; on_goal 1 => (repeat' comp_step))
  all_goals try comp_side
  all_goals try simp only [mul_zero, zero_mul, add_zero, zero_add, sub_zero, zero_sub, mul_one, one_mul]
  all_goals try push_cast
  all_goals comp_eq

theorem d_cbodywf__wing_span (wbodywf croot wing_span wing_taper_ratio : ℝ) (h0 : 0 < wing_span) :
    HasDerivAt (fun t => out_cbodywf wbodywf croot t wing_taper_ratio) (J_cbodywf__wing_span wbodywf croot wing_span wing_taper_ratio) wing_span := by
  simp only [out_cbodywf, J_cbodywf__wing_span]
  (apply hasDerivAt_of_eq; on_goal 1 => (repeat' comp_step))
  all_goals try comp_side
  all_goals try simp only [mul_zero, zero_mul, add_zero, zero_add, sub_zero, zero_sub, mul_one, one_mul]
  all_goals try push_cast
  all_goals comp_eq

theorem d_cbodywf__wing_taper_ratio (wbodywf croot wing_span wing_taper_ratio : ℝ) (h0 : 0 <
    wing_span) :
    HasDerivAt (fun t => out_cbodywf wbodywf croot wing_span t) (J_cbodywf__wing_taper_ratio wbodywf croot wing_span) wing_taper_ratio := by
  simp only [out_cbodywf, J_cbodywf__wing_taper_ratio]
  (apply hasDerivAt_of_eq; on_goal 1 => (repeat' comp_step))
  all_goals try comp_side
  all_goals try simp only [mul_zero, zero_mul, add_zero, zero_add, sub_zero, zero_sub, mul_one, one_mul]
  all_goals try push_cast
  all_goals comp_eq

/-- Every partial derivative set by `BodyRatios` is the derivative of its output. -/
theorem partials (wbodywf croot wing_span wing_taper_ratio wing_thickness_to_chord_root
    wing_thickness_to_chord_tip : ℝ) (h0 : 0 < wing_span) :
    HasDerivAt (fun t => out_tcbodywf t wing_span wing_thickness_to_chord_root
      wing_thickness_to_chord_tip) (J_tcbodywf__wbodywf wing_span wing_thickness_to_chord_root
      wing_thickness_to_chord_tip) wbodywf ∧
    HasDerivAt (fun t => out_tcbodywf wbodywf t wing_thickness_to_chord_root
      wing_thickness_to_chord_tip) (J_tcbodywf__wing_span wbodywf wing_span
      wing_thickness_to_chord_root wing_thickness_to_chord_tip) wing_span ∧
    HasDerivAt (fun t => out_tcbodywf wbodywf wing_span t wing_thickness_to_chord_tip)
      (J_tcbodywf__wing_thickness_to_chord_root wbodywf wing_span) wing_thickness_to_chord_root ∧
    HasDerivAt (fun t => out_tcbodywf wbodywf wing_span wing_thickness_to_chord_root t)
      (J_tcbodywf__wing_thickness_to_chord_tip wbodywf wing_span) wing_thickness_to_chord_tip ∧
    HasDerivAt (fun t => out_cbodywf t croot wing_span wing_taper_ratio) (J_cbodywf__wbodywf croot
      wing_span wing_taper_ratio) wbodywf ∧
    HasDerivAt (fun t => out_cbodywf wbodywf t wing_span wing_taper_ratio) (J_cbodywf__croot wbodywf
      wing_span wing_taper_ratio) croot ∧
    HasDerivAt (fun t => out_cbodywf wbodywf croot t wing_taper_ratio) (J_cbodywf__wing_span wbodywf
      croot wing_span wing_taper_ratio) wing_span ∧
    HasDerivAt (fun t => out_cbodywf wbodywf croot wing_span t) (J_cbodywf__wing_taper_ratio wbodywf
      croot wing_span) wing_taper_ratio :=
  ⟨d_tcbodywf__wbodywf _ _ _ _ h0, d_tcbodywf__wing_span _ _ _ _ h0,
    d_tcbodywf__wing_thickness_to_chord_root _ _ _ _ h0, d_tcbodywf__wing_thickness_to_chord_tip _
    _ _ _ h0, d_cbodywf__wbodywf _ _ _ _ h0, d_cbodywf__croot _ _ _ _ h0, d_cbodywf__wing_span _ _
    _ _ h0, d_cbodywf__wing_taper_ratio _ _ _ _ h0⟩

example : ∃ wbodywf croot wing_span wing_taper_ratio wing_thickness_to_chord_root
      wing_thickness_to_chord_tip : ℝ,
      0 < wing_span :=
  ⟨0, 0, 1, 0, 0, 0, by comp_example⟩

end Verif.Comp.AerodynamicsGaspBasedInterference.BodyRatios

namespace Verif.Comp.AerodynamicsGaspBasedInterference.CommonVariables
open Real

/-- Output `zw_rf` of `CommonVariables.compute`, aviary/subsystems/aerodynamics/gasp_based/interference.py:67 -/
noncomputable def out_zw_rf (wing_vertical_mount_location : ℝ) : ℝ :=
  (2 * wing_vertical_mount_location) - 1

/-- Output `wtofd` of `CommonVariables.compute`, aviary/subsystems/aerodynamics/gasp_based/interference.py:68 -/
noncomputable def out_wtofd (croot wing_thickness_to_chord_root fuselage_avg_diameter : ℝ) : ℝ :=
  (wing_thickness_to_chord_root * croot) / fuselage_avg_diameter

/-- Partial of `zw_rf` with respect to `wing_vertical_mount_location` as set by `CommonVariables`, aviary/subsystems/aerodynamics/gasp_based/interference.py:71 -/
noncomputable def J_zw_rf__wing_vertical_mount_location : ℝ := 2

/-- Partial of `wtofd` with respect to `wing_thickness_to_chord_root` as set by `CommonVariables`, aviary/subsystems/aerodynamics/gasp_based/interference.py:84 -/
noncomputable def J_wtofd__wing_thickness_to_chord_root (croot fuselage_avg_diameter : ℝ) : ℝ :=
  croot / fuselage_avg_diameter

/-- Partial of `wtofd` with respect to `croot` as set by `CommonVariables`, aviary/subsystems/aerodynamics/gasp_based/interference.py:85 -/
noncomputable def J_wtofd__croot (wing_thickness_to_chord_root fuselage_avg_diameter : ℝ) : ℝ :=
  wing_thickness_to_chord_root / fuselage_avg_diameter

/-- Partial of `wtofd` with respect to `fuselage_avg_diameter` as set by `CommonVariables`, aviary/subsystems/aerodynamics/gasp_based/interference.py:86 -/
noncomputable def J_wtofd__fuselage_avg_diameter (croot wing_thickness_to_chord_root fuselage_avg_diameter : ℝ) : ℝ :=
  ((-wing_thickness_to_chord_root) * croot) / (fuselage_avg_diameter ^ 2)

theorem d_zw_rf__wing_vertical_mount_location (wing_vertical_mount_location : ℝ)  :
    HasDerivAt (fun t => out_zw_rf t) (J_zw_rf__wing_vertical_mount_location) wing_vertical_mount_location := by
  simp only [out_zw_rf, J_zw_rf__wing_vertical_mount_location]
  (apply hasDerivAt_of_eq; on_goal 1 => (repeat' comp_step))
  all_goals try comp_side
  all_goals try simp only [mul_zero, zero_mul, add_zero, zero_add, sub_zero, zero_sub, mul_one, one_mul]
  all_goals try push_cast
  all_goals comp_eq

theorem d_wtofd__croot (croot wing_thickness_to_chord_root fuselage_avg_diameter : ℝ) (h0 : 0 <
    fuselage_avg_diameter) :
    HasDerivAt (fun t => out_wtofd t wing_thickness_to_chord_root fuselage_avg_diameter) (J_wtofd__croot wing_thickness_to_chord_root fuselage_avg_diameter) croot := by
  simp only [out_wtofd, J_wtofd__croot]
  (apply hasDerivAt_of_eq; on_goal 1 => (repeat' comp_step))
  all_goals try comp_side
  all_goals try simp only [mul_zero, zero_mul, add_zero, zero_add, sub_zero, zero_sub, mul_one, one_mul]
  all_goals try push_cast
  all_goals comp_eq

theorem d_wtofd__wing_thickness_to_chord_root (croot wing_thickness_to_chord_root
    fuselage_avg_diameter : ℝ) (h0 : 0 < fuselage_avg_diameter) :
    HasDerivAt (fun t => out_wtofd croot t fuselage_avg_diameter) (J_wtofd__wing_thickness_to_chord_root croot fuselage_avg_diameter) wing_thickness_to_chord_root := by
  simp only [out_wtofd, J_wtofd__wing_thickness_to_chord_root]
  (apply hasDerivAt_of_eq; on_goal 1 => (repeat' comp_step))
  all_goals try comp_side
  all_goals try simp only [mul_zero, zero_mul, add_zero, zero_add, sub_zero, zero_sub, mul_one, one_mul]
  all_goals try push_cast
  all_goals comp_eq

theorem d_wtofd__fuselage_avg_diameter (croot wing_thickness_to_chord_root fuselage_avg_diameter :
    ℝ) (h0 : 0 < fuselage_avg_diameter) :
    HasDerivAt (fun t => out_wtofd croot wing_thickness_to_chord_root t) (J_wtofd__fuselage_avg_diameter croot wing_thickness_to_chord_root fuselage_avg_diameter) fuselage_avg_diameter := by
  simp only [out_wtofd, J_wtofd__fuselage_avg_diameter]
  (apply hasDerivAt_of_eq; on_goal 1 => (repeat' comp_step))
  all_goals try comp_side
  all_goals try simp only [mul_zero, zero_mul, add_zero, zero_add, sub_zero, zero_sub, mul_one, one_mul]
  all_goals try push_cast
  all_goals comp_eq

/-- Every partial derivative set by `CommonVariables` is the derivative of its output. -/
theorem partials (croot wing_vertical_mount_location wing_thickness_to_chord_root
    fuselage_avg_diameter : ℝ) (h0 : 0 < fuselage_avg_diameter) :
    HasDerivAt (fun t => out_zw_rf t) (J_zw_rf__wing_vertical_mount_location)
      wing_vertical_mount_location ∧
    HasDerivAt (fun t => out_wtofd t wing_thickness_to_chord_root fuselage_avg_diameter)
      (J_wtofd__croot wing_thickness_to_chord_root fuselage_avg_diameter) croot ∧
    HasDerivAt (fun t => out_wtofd croot t fuselage_avg_diameter)
      (J_wtofd__wing_thickness_to_chord_root croot fuselage_avg_diameter)
      wing_thickness_to_chord_root ∧
    HasDerivAt (fun t => out_wtofd croot wing_thickness_to_chord_root t)
      (J_wtofd__fuselage_avg_diameter croot wing_thickness_to_chord_root fuselage_avg_diameter)
      fuselage_avg_diameter :=
  ⟨d_zw_rf__wing_vertical_mount_location _, d_wtofd__croot _ _ _ h0,
    d_wtofd__wing_thickness_to_chord_root _ _ _ h0, d_wtofd__fuselage_avg_diameter _ _ _ h0⟩

example : ∃ croot wing_vertical_mount_location wing_thickness_to_chord_root fuselage_avg_diameter
      : ℝ,
      0 < fuselage_avg_diameter :=
  ⟨0, 0, 0, 1, by comp_example⟩

end Verif.Comp.AerodynamicsGaspBasedInterference.CommonVariables

namespace Verif.Comp.AerodynamicsGaspBasedInterference.InterferenceDrag
open Real

/-- aviary/subsystems/aerodynamics/gasp_based/interference.py:224 -/
noncomputable def kvwf (zw_rf : ℝ) : ℝ :=
  ((97 / 5000) - ((14817 / 100000) * zw_rf)) + ((2703 / 2000) * (zw_rf ^ 2))

/-- aviary/subsystems/aerodynamics/gasp_based/interference.py:226 -/
noncomputable def klwf (wing_center_distance : ℝ) : ℝ :=
  ((((13077 / 100000) + ((19791 / 10000) * wing_center_distance)) + ((1333 / 400) *
    (wing_center_distance ^ 2))) - ((2019 / 200) * (wing_center_distance ^ 3))) + ((47229 /
    10000) * (wing_center_distance ^ 4))

/-- aviary/subsystems/aerodynamics/gasp_based/interference.py:228 -/
noncomputable def kdtwf (tcbodywf cbodywf fuselage_avg_diameter : ℝ) : ℝ :=
  (73543 / 100000) + (((28571 / 1000000) * fuselage_avg_diameter) / (tcbodywf * cbodywf))

/-- aviary/subsystems/aerodynamics/gasp_based/interference.py:230 -/
noncomputable def feintwf (tcbodywf cbodywf zw_rf fuselage_avg_diameter wing_center_distance : ℝ) : ℝ :=
  (((((3 / 2) * (tcbodywf ^ 3)) * (cbodywf ^ 2)) * (kvwf zw_rf)) * (klwf wing_center_distance))
    * (kdtwf tcbodywf cbodywf fuselage_avg_diameter)

/-- aviary/subsystems/aerodynamics/gasp_based/interference.py:231 -/
noncomputable def areashieldwf (wbodywf croot cbodywf : ℝ) : ℝ :=
  ((1 / 2) * (croot + cbodywf)) * wbodywf

/-- aviary/subsystems/aerodynamics/gasp_based/interference.py:262 -/
noncomputable def dkvwf_dzwrf (zw_rf : ℝ) : ℝ := (-(14817 / 100000)) + ((2703 / 1000) * zw_rf)

/-- aviary/subsystems/aerodynamics/gasp_based/interference.py:264 -/
noncomputable def dklwf_dxwqlf (wing_center_distance : ℝ) : ℝ :=
  (((19791 / 10000) + ((1333 / 200) * wing_center_distance)) - ((6057 / 200) *
    (wing_center_distance ^ 2))) + ((47229 / 2500) * (wing_center_distance ^ 3))

/-- aviary/subsystems/aerodynamics/gasp_based/interference.py:266 -/
noncomputable def dkdtwf_dswf (tcbodywf cbodywf : ℝ) : ℝ := (28571 / 1000000) / (tcbodywf * cbodywf)

/-- Output `interference_independent_of_shielded_area` of `InterferenceDrag.compute`, aviary/subsystems/aerodynamics/gasp_based/interference.py:234 -/
noncomputable def out_interference_independent_of_shielded_area (tcbodywf cbodywf zw_rf fuselage_avg_diameter wing_center_distance : ℝ) : ℝ :=
  feintwf tcbodywf cbodywf zw_rf fuselage_avg_diameter wing_center_distance

/-- Output `drag_loss_due_to_shielded_wing_area` of `InterferenceDrag.compute`, aviary/subsystems/aerodynamics/gasp_based/interference.py:236 -/
noncomputable def out_drag_loss_due_to_shielded_wing_area (wbodywf croot cbodywf : ℝ) : ℝ :=
  areashieldwf wbodywf croot cbodywf

/-- Partial of `interference_independent_of_shielded_area` with respect to `tcbodywf` as set by `InterferenceDrag`, aviary/subsystems/aerodynamics/gasp_based/interference.py:270 -/
noncomputable def J_interference_independent_of_shielded_area__tcbodywf (tcbodywf cbodywf zw_rf fuselage_avg_diameter wing_center_distance : ℝ) : ℝ :=
  (((((3 / 2) * tcbodywf) * (cbodywf ^ 2)) * (kvwf zw_rf)) * (klwf wing_center_distance)) *
    (((220629 / 100000) * tcbodywf) + (((28571 / 500000) * fuselage_avg_diameter) / cbodywf))

/-- Partial of `interference_independent_of_shielded_area` with respect to `cbodywf` as set by `InterferenceDrag`, aviary/subsystems/aerodynamics/gasp_based/interference.py:278 -/
noncomputable def J_interference_independent_of_shielded_area__cbodywf (tcbodywf cbodywf zw_rf fuselage_avg_diameter wing_center_distance : ℝ) : ℝ :=
  ((((3 / 2) * (tcbodywf ^ 3)) * (kvwf zw_rf)) * (klwf wing_center_distance)) * (((73543 /
    50000) * cbodywf) + (((28571 / 1000000) * fuselage_avg_diameter) / tcbodywf))

/-- Partial of `interference_independent_of_shielded_area` with respect to `zw_rf` as set by `InterferenceDrag`, aviary/subsystems/aerodynamics/gasp_based/interference.py:281 -/
noncomputable def J_interference_independent_of_shielded_area__zw_rf (tcbodywf cbodywf zw_rf fuselage_avg_diameter wing_center_distance : ℝ) : ℝ :=
  (((((3 / 2) * (tcbodywf ^ 3)) * (cbodywf ^ 2)) * (dkvwf_dzwrf zw_rf)) * (klwf
    wing_center_distance)) * (kdtwf tcbodywf cbodywf fuselage_avg_diameter)

/-- Partial of `interference_independent_of_shielded_area` with respect to `wing_center_distance` as set by `InterferenceDrag`, aviary/subsystems/aerodynamics/gasp_based/interference.py:284 -/
noncomputable def J_interference_independent_of_shielded_area__wing_center_distance (tcbodywf cbodywf zw_rf fuselage_avg_diameter wing_center_distance : ℝ) : ℝ :=
  (((((3 / 2) * (tcbodywf ^ 3)) * (cbodywf ^ 2)) * (kvwf zw_rf)) * (dklwf_dxwqlf
    wing_center_distance)) * (kdtwf tcbodywf cbodywf fuselage_avg_diameter)

/-- Partial of `interference_independent_of_shielded_area` with respect to `fuselage_avg_diameter` as set by `InterferenceDrag`, aviary/subsystems/aerodynamics/gasp_based/interference.py:287 -/
noncomputable def J_interference_independent_of_shielded_area__fuselage_avg_diameter (tcbodywf cbodywf zw_rf wing_center_distance : ℝ) : ℝ :=
  (((((3 / 2) * (tcbodywf ^ 3)) * (cbodywf ^ 2)) * (kvwf zw_rf)) * (klwf wing_center_distance))
    * (dkdtwf_dswf tcbodywf cbodywf)

/-- Partial of `drag_loss_due_to_shielded_wing_area` with respect to `croot` as set by `InterferenceDrag`, aviary/subsystems/aerodynamics/gasp_based/interference.py:291 -/
noncomputable def J_drag_loss_due_to_shielded_wing_area__croot (wbodywf : ℝ) : ℝ :=
  (1 / 2) * wbodywf

/-- Partial of `drag_loss_due_to_shielded_wing_area` with respect to `cbodywf` as set by `InterferenceDrag`, aviary/subsystems/aerodynamics/gasp_based/interference.py:292 -/
noncomputable def J_drag_loss_due_to_shielded_wing_area__cbodywf (wbodywf : ℝ) : ℝ :=
  (1 / 2) * wbodywf

/-- Partial of `drag_loss_due_to_shielded_wing_area` with respect to `wbodywf` as set by `InterferenceDrag`, aviary/subsystems/aerodynamics/gasp_based/interference.py:293 -/
noncomputable def J_drag_loss_due_to_shielded_wing_area__wbodywf (croot cbodywf : ℝ) : ℝ :=
  (1 / 2) * (croot + cbodywf)

theorem d_interference_independent_of_shielded_area__tcbodywf (tcbodywf cbodywf zw_rf
    fuselage_avg_diameter wing_center_distance : ℝ) (h0 : 0 < tcbodywf) (h1 : 0 < cbodywf) :
    HasDerivAt (fun t => out_interference_independent_of_shielded_area t cbodywf zw_rf fuselage_avg_diameter wing_center_distance) (J_interference_independent_of_shielded_area__tcbodywf tcbodywf cbodywf zw_rf fuselage_avg_diameter wing_center_distance) tcbodywf := by
  simp only [out_interference_independent_of_shielded_area, J_interference_independent_of_shielded_area__tcbodywf, feintwf, kdtwf, klwf, kvwf]
  (apply hasDerivAt_of_eq; on_goal 1 => (repeat' comp_step))
  all_goals try comp_side
  all_goals try simp only [mul_zero, zero_mul, add_zero, zero_add, sub_zero, zero_sub, mul_one, one_mul]
  all_goals try push_cast
  all_goals comp_eq

theorem d_interference_independent_of_shielded_area__cbodywf (tcbodywf cbodywf zw_rf
    fuselage_avg_diameter wing_center_distance : ℝ) (h0 : 0 < tcbodywf) (h1 : 0 < cbodywf) :
    HasDerivAt (fun t => out_interference_independent_of_shielded_area tcbodywf t zw_rf fuselage_avg_diameter wing_center_distance) (J_interference_independent_of_shielded_area__cbodywf tcbodywf cbodywf zw_rf fuselage_avg_diameter wing_center_distance) cbodywf := by
  simp only [out_interference_independent_of_shielded_area, J_interference_independent_of_shielded_area__cbodywf, feintwf, kdtwf, klwf, kvwf]
  (apply hasDerivAt_of_eq; on_goal 1 => (repeat' comp_step))
  all_goals try comp_side
  all_goals try simp only [mul_zero, zero_mul, add_zero, zero_add, sub_zero, zero_sub, mul_one, one_mul]
  all_goals try push_cast
  all_goals comp_eq

theorem d_interference_independent_of_shielded_area__zw_rf (tcbodywf cbodywf zw_rf
    fuselage_avg_diameter wing_center_distance : ℝ) (h0 : 0 < tcbodywf) (h1 : 0 < cbodywf) :
    HasDerivAt (fun t => out_interference_independent_of_shielded_area tcbodywf cbodywf t fuselage_avg_diameter wing_center_distance) (J_interference_independent_of_shielded_area__zw_rf tcbodywf cbodywf zw_rf fuselage_avg_diameter wing_center_distance) zw_rf := by
  simp only [out_interference_independent_of_shielded_area, J_interference_independent_of_shielded_area__zw_rf, dkvwf_dzwrf, feintwf, kdtwf, klwf, kvwf]
  (apply hasDerivAt_of_eq; on_goal 1 => (repeat' comp_step))
  all_goals try comp_side
  all_goals try simp only [mul_zero, zero_mul, add_zero, zero_add, sub_zero, zero_sub, mul_one, one_mul]
  all_goals try push_cast
  all_goals comp_eq

theorem d_interference_independent_of_shielded_area__fuselage_avg_diameter (tcbodywf cbodywf zw_rf
    fuselage_avg_diameter wing_center_distance : ℝ) (h0 : 0 < tcbodywf) (h1 : 0 < cbodywf) :
    HasDerivAt (fun t => out_interference_independent_of_shielded_area tcbodywf cbodywf zw_rf t wing_center_distance) (J_interference_independent_of_shielded_area__fuselage_avg_diameter tcbodywf cbodywf zw_rf wing_center_distance) fuselage_avg_diameter := by
  simp only [out_interference_independent_of_shielded_area, J_interference_independent_of_shielded_area__fuselage_avg_diameter, dkdtwf_dswf, feintwf, kdtwf, klwf, kvwf]
  (apply hasDerivAt_of_eq; on_goal 1 => (repeat' comp_step))
  all_goals try comp_side
  all_goals try simp only [mul_zero, zero_mul, add_zero, zero_add, sub_zero, zero_sub, mul_one, one_mul]
  all_goals try push_cast
  all_goals comp_eq

theorem d_interference_independent_of_shielded_area__wing_center_distance (tcbodywf cbodywf zw_rf
    fuselage_avg_diameter wing_center_distance : ℝ) (h0 : 0 < tcbodywf) (h1 : 0 < cbodywf) :
    HasDerivAt (fun t => out_interference_independent_of_shielded_area tcbodywf cbodywf zw_rf fuselage_avg_diameter t) (J_interference_independent_of_shielded_area__wing_center_distance tcbodywf cbodywf zw_rf fuselage_avg_diameter wing_center_distance) wing_center_distance := by
  simp only [out_interference_independent_of_shielded_area, J_interference_independent_of_shielded_area__wing_center_distance, dklwf_dxwqlf, feintwf, kdtwf, klwf, kvwf]
  (apply hasDerivAt_of_eq; on_goal 1 => (repeat' comp_step))
  all_goals try comp_side
  all_goals try simp only [mul_zero, zero_mul, add_zero, zero_add, sub_zero, zero_sub, mul_one, one_mul]
  all_goals try push_cast
  all_goals comp_eq

theorem d_drag_loss_due_to_shielded_wing_area__wbodywf (wbodywf croot cbodywf : ℝ)  :
    HasDerivAt (fun t => out_drag_loss_due_to_shielded_wing_area t croot cbodywf) (J_drag_loss_due_to_shielded_wing_area__wbodywf croot cbodywf) wbodywf := by
  simp only [out_drag_loss_due_to_shielded_wing_area, J_drag_loss_due_to_shielded_wing_area__wbodywf, areashieldwf]
  (apply hasDerivAt_of_eq; on_goal 1 => (repeat' comp_step))
  all_goals try comp_side
  all_goals try simp only [mul_zero, zero_mul, add_zero, zero_add, sub_zero, zero_sub, mul_one, one_mul]
  all_goals try push_cast
  all_goals comp_eq

theorem d_drag_loss_due_to_shielded_wing_area__croot (wbodywf croot cbodywf : ℝ)  :
    HasDerivAt (fun t => out_drag_loss_due_to_shielded_wing_area wbodywf t cbodywf) (J_drag_loss_due_to_shielded_wing_area__croot wbodywf) croot := by
  simp only [out_drag_loss_due_to_shielded_wing_area, J_drag_loss_due_to_shielded_wing_area__croot, areashieldwf]
  (apply hasDerivAt_of_eq; on_goal 1 => (repeat' comp_step))
  all_goals try comp_side
  all_goals try simp only [mul_zero, zero_mul, add_zero, zero_add, sub_zero, zero_sub, mul_one, one_mul]
  all_goals try push_cast
  all_goals comp_eq

theorem d_drag_loss_due_to_shielded_wing_area__cbodywf (wbodywf croot cbodywf : ℝ)  :
    HasDerivAt (fun t => out_drag_loss_due_to_shielded_wing_area wbodywf croot t) (J_drag_loss_due_to_shielded_wing_area__cbodywf wbodywf) cbodywf := by
  simp only [out_drag_loss_due_to_shielded_wing_area, J_drag_loss_due_to_shielded_wing_area__cbodywf, areashieldwf]
  (apply hasDerivAt_of_eq; on_goal 1 => (repeat' comp_step))
  all_goals try comp_side
  all_goals try simp only [mul_zero, zero_mul, add_zero, zero_add, sub_zero, zero_sub, mul_one, one_mul]
  all_goals try push_cast
  all_goals comp_eq

/-- Every partial derivative set by `InterferenceDrag` is the derivative of its output. -/
theorem partials (wbodywf croot tcbodywf cbodywf zw_rf fuselage_avg_diameter wing_center_distance
    : ℝ) (h0 : 0 < tcbodywf) (h1 : 0 < cbodywf) :
    HasDerivAt (fun t => out_interference_independent_of_shielded_area t cbodywf zw_rf
      fuselage_avg_diameter wing_center_distance)
      (J_interference_independent_of_shielded_area__tcbodywf tcbodywf cbodywf zw_rf
      fuselage_avg_diameter wing_center_distance) tcbodywf ∧
    HasDerivAt (fun t => out_interference_independent_of_shielded_area tcbodywf t zw_rf
      fuselage_avg_diameter wing_center_distance)
      (J_interference_independent_of_shielded_area__cbodywf tcbodywf cbodywf zw_rf
      fuselage_avg_diameter wing_center_distance) cbodywf ∧
    HasDerivAt (fun t => out_interference_independent_of_shielded_area tcbodywf cbodywf t
      fuselage_avg_diameter wing_center_distance)
      (J_interference_independent_of_shielded_area__zw_rf tcbodywf cbodywf zw_rf
      fuselage_avg_diameter wing_center_distance) zw_rf ∧
    HasDerivAt (fun t => out_interference_independent_of_shielded_area tcbodywf cbodywf zw_rf t
      wing_center_distance) (J_interference_independent_of_shielded_area__fuselage_avg_diameter
      tcbodywf cbodywf zw_rf wing_center_distance) fuselage_avg_diameter ∧
    HasDerivAt (fun t => out_interference_independent_of_shielded_area tcbodywf cbodywf zw_rf
      fuselage_avg_diameter t) (J_interference_independent_of_shielded_area__wing_center_distance
      tcbodywf cbodywf zw_rf fuselage_avg_diameter wing_center_distance) wing_center_distance ∧
    HasDerivAt (fun t => out_drag_loss_due_to_shielded_wing_area t croot cbodywf)
      (J_drag_loss_due_to_shielded_wing_area__wbodywf croot cbodywf) wbodywf ∧
    HasDerivAt (fun t => out_drag_loss_due_to_shielded_wing_area wbodywf t cbodywf)
      (J_drag_loss_due_to_shielded_wing_area__croot wbodywf) croot ∧
    HasDerivAt (fun t => out_drag_loss_due_to_shielded_wing_area wbodywf croot t)
      (J_drag_loss_due_to_shielded_wing_area__cbodywf wbodywf) cbodywf :=
  ⟨d_interference_independent_of_shielded_area__tcbodywf _ _ _ _ _ h0 h1,
    d_interference_independent_of_shielded_area__cbodywf _ _ _ _ _ h0 h1,
    d_interference_independent_of_shielded_area__zw_rf _ _ _ _ _ h0 h1,
    d_interference_independent_of_shielded_area__fuselage_avg_diameter _ _ _ _ _ h0 h1,
    d_interference_independent_of_shielded_area__wing_center_distance _ _ _ _ _ h0 h1,
    d_drag_loss_due_to_shielded_wing_area__wbodywf _ _ _,
    d_drag_loss_due_to_shielded_wing_area__croot _ _ _,
    d_drag_loss_due_to_shielded_wing_area__cbodywf _ _ _⟩

example : ∃ wbodywf croot tcbodywf cbodywf zw_rf fuselage_avg_diameter wing_center_distance : ℝ,
      0 < tcbodywf ∧
      0 < cbodywf :=
  ⟨0, 0, 1, 1, 0, 0, 0, by comp_example, by comp_example⟩

end Verif.Comp.AerodynamicsGaspBasedInterference.InterferenceDrag

namespace Verif.Comp.AerodynamicsGaspBasedInterference.RootChord
open Real

/-- Output `croot` of `RootChord.compute`, aviary/subsystems/aerodynamics/gasp_based/interference.py:28 -/
noncomputable def out_croot (wing_area wing_span wing_taper_ratio : ℝ) : ℝ :=
  (2 * wing_area) / (wing_span * (1 + wing_taper_ratio))

/-- Partial of `croot` with respect to `wing_area` as set by `RootChord`, aviary/subsystems/aerodynamics/gasp_based/interference.py:43 -/
noncomputable def J_croot__wing_area (wing_span wing_taper_ratio : ℝ) : ℝ :=
  2 / (wing_span * (1 + wing_taper_ratio))

/-- Partial of `croot` with respect to `wing_span` as set by `RootChord`, aviary/subsystems/aerodynamics/gasp_based/interference.py:44 -/
noncomputable def J_croot__wing_span (wing_area wing_span wing_taper_ratio : ℝ) : ℝ :=
  ((-2) * wing_area) / ((wing_span ^ 2) * (1 + wing_taper_ratio))

/-- Partial of `croot` with respect to `wing_taper_ratio` as set by `RootChord`, aviary/subsystems/aerodynamics/gasp_based/interference.py:45 -/
noncomputable def J_croot__wing_taper_ratio (wing_area wing_span wing_taper_ratio : ℝ) : ℝ :=
  ((-2) * wing_area) / (wing_span * ((1 + wing_taper_ratio) ^ 2))

theorem d_croot__wing_area (wing_area wing_span wing_taper_ratio : ℝ) (h0 : 0 < wing_span) (h1 : 0
    < wing_taper_ratio) :
    HasDerivAt (fun t => out_croot t wing_span wing_taper_ratio) (J_croot__wing_area wing_span wing_taper_ratio) wing_area := by
  simp only [out_croot, J_croot__wing_area]
  (apply hasDerivAt_of_eq; on_goal 1 => (repeat' comp_step))
  all_goals try comp_side
  all_goals try simp only [mul_zero, zero_mul, add_zero, zero_add, sub_zero, zero_sub, mul_one, one_mul]
  all_goals try push_cast
  all_goals comp_eq

theorem d_croot__wing_span (wing_area wing_span wing_taper_ratio : ℝ) (h0 : 0 < wing_span) (h1 : 0
    < wing_taper_ratio) :
    HasDerivAt (fun t => out_croot wing_area t wing_taper_ratio) (J_croot__wing_span wing_area wing_span wing_taper_ratio) wing_span := by
  simp only [out_croot, J_croot__wing_span]
  (apply hasDerivAt_of_eq; on_goal 1 => (repeat' comp_step))
  all_goals try comp_side
  all_goals try simp only [mul_zero, zero_mul, add_zero, zero_add, sub_zero, zero_sub, mul_one, one_mul]
  all_goals try push_cast
  all_goals comp_eq

theorem d_croot__wing_taper_ratio (wing_area wing_span wing_taper_ratio : ℝ) (h0 : 0 < wing_span)
    (h1 : 0 < wing_taper_ratio) :
    HasDerivAt (fun t => out_croot wing_area wing_span t) (J_croot__wing_taper_ratio wing_area wing_span wing_taper_ratio) wing_taper_ratio := by
  simp only [out_croot, J_croot__wing_taper_ratio]
  (apply hasDerivAt_of_eq; on_goal 1 => (repeat' comp_step))
  all_goals try comp_side
  all_goals try simp only [mul_zero, zero_mul, add_zero, zero_add, sub_zero, zero_sub, mul_one, one_mul]
  all_goals try push_cast
  all_goals comp_eq

/-- Every partial derivative set by `RootChord` is the derivative of its output. -/
theorem partials (wing_area wing_span wing_taper_ratio : ℝ) (h0 : 0 < wing_span) (h1 : 0 <
    wing_taper_ratio) :
    HasDerivAt (fun t => out_croot t wing_span wing_taper_ratio) (J_croot__wing_area wing_span
      wing_taper_ratio) wing_area ∧
    HasDerivAt (fun t => out_croot wing_area t wing_taper_ratio) (J_croot__wing_span wing_area
      wing_span wing_taper_ratio) wing_span ∧
    HasDerivAt (fun t => out_croot wing_area wing_span t) (J_croot__wing_taper_ratio wing_area
      wing_span wing_taper_ratio) wing_taper_ratio :=
  ⟨d_croot__wing_area _ _ _ h0 h1, d_croot__wing_span _ _ _ h0 h1, d_croot__wing_taper_ratio _ _ _
    h0 h1⟩

example : ∃ wing_area wing_span wing_taper_ratio : ℝ,
      0 < wing_span ∧
      0 < wing_taper_ratio :=
  ⟨0, 1, 1, by comp_example, by comp_example⟩

end Verif.Comp.AerodynamicsGaspBasedInterference.RootChord

namespace Verif.Comp.AerodynamicsGaspBasedInterference.TopAndBottomWidth
open Real

/-- aviary/subsystems/aerodynamics/gasp_based/interference.py:105 -/
noncomputable abbrev widthftop (zw_rf wtofd fuselage_avg_diameter : ℝ) : ℝ :=
  fuselage_avg_diameter * ((1 - ((zw_rf + wtofd) ^ 2)) ^ ((1 / 2) : ℝ))

/-- aviary/subsystems/aerodynamics/gasp_based/interference.py:102 -/
noncomputable abbrev widthftop_2 (zw_rf wtofd fuselage_avg_diameter : ℝ) : ℝ :=
  if 1 ≤ |(zw_rf + wtofd)| then 0 else (widthftop zw_rf wtofd fuselage_avg_diameter)

/-- aviary/subsystems/aerodynamics/gasp_based/interference.py:109 -/
noncomputable abbrev widthfbot (zw_rf wtofd fuselage_avg_diameter : ℝ) : ℝ :=
  fuselage_avg_diameter * ((1 - ((zw_rf - wtofd) ^ 2)) ^ ((1 / 2) : ℝ))

/-- aviary/subsystems/aerodynamics/gasp_based/interference.py:106 -/
noncomputable abbrev widthfbot_2 (zw_rf wtofd fuselage_avg_diameter : ℝ) : ℝ :=
  if 1 ≤ |(zw_rf - wtofd)| then 0 else (widthfbot zw_rf wtofd fuselage_avg_diameter)

/-- aviary/subsystems/aerodynamics/gasp_based/interference.py:131 -/
noncomputable abbrev dtop_dzwrf (zw_rf wtofd fuselage_avg_diameter : ℝ) : ℝ :=
  ((-fuselage_avg_diameter) * ((1 - ((zw_rf + wtofd) ^ 2)) ^ ((-(1 / 2)) : ℝ))) * (zw_rf +
    wtofd)

/-- aviary/subsystems/aerodynamics/gasp_based/interference.py:132 -/
noncomputable abbrev dtop_dwtofd (zw_rf wtofd fuselage_avg_diameter : ℝ) : ℝ :=
  ((-fuselage_avg_diameter) * ((1 - ((zw_rf + wtofd) ^ 2)) ^ ((-(1 / 2)) : ℝ))) * (zw_rf +
    wtofd)

/-- aviary/subsystems/aerodynamics/gasp_based/interference.py:133 -/
noncomputable abbrev dtop_dswf (zw_rf wtofd : ℝ) : ℝ := (1 - ((zw_rf + wtofd) ^ 2)) ^ ((1 / 2) : ℝ)

/-- aviary/subsystems/aerodynamics/gasp_based/interference.py:126 -/
noncomputable abbrev dtop_dzwrf_2 (zw_rf wtofd fuselage_avg_diameter : ℝ) : ℝ :=
  if 1 ≤ |(zw_rf + wtofd)| then 0 else (dtop_dzwrf zw_rf wtofd fuselage_avg_diameter)

/-- aviary/subsystems/aerodynamics/gasp_based/interference.py:126 -/
noncomputable abbrev dtop_dwtofd_2 (zw_rf wtofd fuselage_avg_diameter : ℝ) : ℝ :=
  if 1 ≤ |(zw_rf + wtofd)| then 0 else (dtop_dwtofd zw_rf wtofd fuselage_avg_diameter)

/-- aviary/subsystems/aerodynamics/gasp_based/interference.py:126 -/
noncomputable abbrev dtop_dswf_2 (zw_rf wtofd : ℝ) : ℝ :=
  if 1 ≤ |(zw_rf + wtofd)| then 0 else (dtop_dswf zw_rf wtofd)

/-- aviary/subsystems/aerodynamics/gasp_based/interference.py:139 -/
noncomputable abbrev dbot_dzwrf (zw_rf wtofd fuselage_avg_diameter : ℝ) : ℝ :=
  ((-fuselage_avg_diameter) * ((1 - ((zw_rf - wtofd) ^ 2)) ^ ((-(1 / 2)) : ℝ))) * (zw_rf -
    wtofd)

/-- aviary/subsystems/aerodynamics/gasp_based/interference.py:140 -/
noncomputable abbrev dbot_dwtofd (zw_rf wtofd fuselage_avg_diameter : ℝ) : ℝ :=
  (fuselage_avg_diameter * ((1 - ((zw_rf - wtofd) ^ 2)) ^ ((-(1 / 2)) : ℝ))) * (zw_rf - wtofd)

/-- aviary/subsystems/aerodynamics/gasp_based/interference.py:141 -/
noncomputable abbrev dbot_dswf (zw_rf wtofd : ℝ) : ℝ := (1 - ((zw_rf - wtofd) ^ 2)) ^ ((1 / 2) : ℝ)

/-- aviary/subsystems/aerodynamics/gasp_based/interference.py:134 -/
noncomputable abbrev dbot_dzwrf_2 (zw_rf wtofd fuselage_avg_diameter : ℝ) : ℝ :=
  if 1 ≤ |(zw_rf - wtofd)| then 0 else (dbot_dzwrf zw_rf wtofd fuselage_avg_diameter)

/-- aviary/subsystems/aerodynamics/gasp_based/interference.py:134 -/
noncomputable abbrev dbot_dwtofd_2 (zw_rf wtofd fuselage_avg_diameter : ℝ) : ℝ :=
  if 1 ≤ |(zw_rf - wtofd)| then 0 else (dbot_dwtofd zw_rf wtofd fuselage_avg_diameter)

/-- aviary/subsystems/aerodynamics/gasp_based/interference.py:134 -/
noncomputable abbrev dbot_dswf_2 (zw_rf wtofd : ℝ) : ℝ :=
  if 1 ≤ |(zw_rf - wtofd)| then 0 else (dbot_dswf zw_rf wtofd)

/-- Output `wbodywf` of `TopAndBottomWidth.compute`, aviary/subsystems/aerodynamics/gasp_based/interference.py:111 -/
noncomputable def out_wbodywf (zw_rf wtofd fuselage_avg_diameter : ℝ) : ℝ :=
  (1 / 2) * ((widthftop_2 zw_rf wtofd fuselage_avg_diameter) + (widthfbot_2 zw_rf wtofd
    fuselage_avg_diameter))

/-- Partial of `wbodywf` with respect to `zw_rf` as set by `TopAndBottomWidth`, aviary/subsystems/aerodynamics/gasp_based/interference.py:143 -/
noncomputable def J_wbodywf__zw_rf (zw_rf wtofd fuselage_avg_diameter : ℝ) : ℝ :=
  (1 / 2) * ((dtop_dzwrf_2 zw_rf wtofd fuselage_avg_diameter) + (dbot_dzwrf_2 zw_rf wtofd
    fuselage_avg_diameter))

/-- Partial of `wbodywf` with respect to `wtofd` as set by `TopAndBottomWidth`, aviary/subsystems/aerodynamics/gasp_based/interference.py:144 -/
noncomputable def J_wbodywf__wtofd (zw_rf wtofd fuselage_avg_diameter : ℝ) : ℝ :=
  (1 / 2) * ((dtop_dwtofd_2 zw_rf wtofd fuselage_avg_diameter) + (dbot_dwtofd_2 zw_rf wtofd
    fuselage_avg_diameter))

/-- Partial of `wbodywf` with respect to `fuselage_avg_diameter` as set by `TopAndBottomWidth`, aviary/subsystems/aerodynamics/gasp_based/interference.py:145 -/
noncomputable def J_wbodywf__fuselage_avg_diameter (zw_rf wtofd : ℝ) : ℝ :=
  (1 / 2) * ((dtop_dswf_2 zw_rf wtofd) + (dbot_dswf_2 zw_rf wtofd))

theorem d_wbodywf__zw_rf (zw_rf wtofd fuselage_avg_diameter : ℝ) (h0 : 0 < zw_rf) (h1 : 0 < wtofd)
    (h2 : |(zw_rf + wtofd)| ≠ 1) (h3 : 0 < 1 - ((zw_rf + wtofd) ^ 2)) (h4 : zw_rf - wtofd ≠ 0) (h5
    : |(zw_rf - wtofd)| ≠ 1) (h6 : 0 < 1 - ((zw_rf - wtofd) ^ 2)) :
    HasDerivAt (fun t => out_wbodywf t wtofd fuselage_avg_diameter) (J_wbodywf__zw_rf zw_rf wtofd fuselage_avg_diameter) zw_rf := by
  have e0 : ∀ x : ℝ, 0 < x → x ^ ((-(1 / 2)) : ℝ) = x ^ ((1 / 2) : ℝ) / x ^ 1 := fun x hx => rpow_down hx 1 (by norm_num)
  simp only [out_wbodywf, J_wbodywf__zw_rf, dbot_dzwrf_2, dbot_dzwrf, dtop_dzwrf_2, dtop_dzwrf, widthfbot_2, widthfbot, widthftop_2, widthftop]
  try split_ifs
  all_goals (apply hasDerivAt_of_eq; on_goal 1 => (repeat' comp_step))
  all_goals try comp_side
  all_goals try simp (disch := first | assumption | positivity) only [e0, div_mul_eq_div_div, div_half, inv_half]
  all_goals try split_ifs
  all_goals try (exfalso; linarith)
  all_goals try simp only [mul_zero, zero_mul, add_zero, zero_add, sub_zero, zero_sub, mul_one, one_mul]
  all_goals try push_cast
  all_goals comp_eq

theorem d_wbodywf__wtofd (zw_rf wtofd fuselage_avg_diameter : ℝ) (h0 : 0 < zw_rf) (h1 : 0 < wtofd)
    (h2 : |(zw_rf + wtofd)| ≠ 1) (h3 : 0 < 1 - ((zw_rf + wtofd) ^ 2)) (h4 : zw_rf - wtofd ≠ 0) (h5
    : |(zw_rf - wtofd)| ≠ 1) (h6 : 0 < 1 - ((zw_rf - wtofd) ^ 2)) :
    HasDerivAt (fun t => out_wbodywf zw_rf t fuselage_avg_diameter) (J_wbodywf__wtofd zw_rf wtofd fuselage_avg_diameter) wtofd := by
  have e0 : ∀ x : ℝ, 0 < x → x ^ ((-(1 / 2)) : ℝ) = x ^ ((1 / 2) : ℝ) / x ^ 1 := fun x hx => rpow_down hx 1 (by norm_num)
  simp only [out_wbodywf, J_wbodywf__wtofd, dbot_dwtofd_2, dbot_dwtofd, dtop_dwtofd_2, dtop_dwtofd, widthfbot_2, widthfbot, widthftop_2, widthftop]
  try split_ifs
  all_goals (apply hasDerivAt_of_eq; on_goal 1 => (repeat' comp_step))
  all_goals try comp_side
  all_goals try simp (disch := first | assumption | positivity) only [e0, div_mul_eq_div_div, div_half, inv_half]
  all_goals try split_ifs
  all_goals try (exfalso; linarith)
  all_goals try simp only [mul_zero, zero_mul, add_zero, zero_add, sub_zero, zero_sub, mul_one, one_mul]
  all_goals try push_cast
  all_goals comp_eq

theorem d_wbodywf__fuselage_avg_diameter (zw_rf wtofd fuselage_avg_diameter : ℝ) (h0 : 0 < zw_rf)
    (h1 : 0 < wtofd) (h2 : 0 < 1 - ((zw_rf + wtofd) ^ 2)) (h3 : zw_rf - wtofd ≠ 0) (h4 : 0 < 1 -
    ((zw_rf - wtofd) ^ 2)) :
    HasDerivAt (fun t => out_wbodywf zw_rf wtofd t) (J_wbodywf__fuselage_avg_diameter zw_rf wtofd) fuselage_avg_diameter := by
  simp only [out_wbodywf, J_wbodywf__fuselage_avg_diameter, dbot_dswf_2, dbot_dswf, dtop_dswf_2, dtop_dswf, widthfbot_2, widthfbot, widthftop_2, widthftop]
  try split_ifs
  all_goals (apply hasDerivAt_of_eq; on_goal 1 => (repeat' comp_step))
  all_goals try comp_side
  all_goals try simp (disch := first | assumption | positivity) only [div_mul_eq_div_div, div_half, inv_half]
  all_goals try split_ifs
  all_goals try (exfalso; linarith)
  all_goals try simp only [mul_zero, zero_mul, add_zero, zero_add, sub_zero, zero_sub, mul_one, one_mul]
  all_goals try push_cast
  all_goals comp_eq

/-- Every partial derivative set by `TopAndBottomWidth` is the derivative of its output. -/
theorem partials (zw_rf wtofd fuselage_avg_diameter : ℝ) (h0 : 0 < zw_rf) (h1 : 0 < wtofd) (h2 :
    |(zw_rf + wtofd)| ≠ 1) (h3 : 0 < 1 - ((zw_rf + wtofd) ^ 2)) (h4 : zw_rf - wtofd ≠ 0) (h5 :
    |(zw_rf - wtofd)| ≠ 1) (h6 : 0 < 1 - ((zw_rf - wtofd) ^ 2)) :
    HasDerivAt (fun t => out_wbodywf t wtofd fuselage_avg_diameter) (J_wbodywf__zw_rf zw_rf wtofd
      fuselage_avg_diameter) zw_rf ∧
    HasDerivAt (fun t => out_wbodywf zw_rf t fuselage_avg_diameter) (J_wbodywf__wtofd zw_rf wtofd
      fuselage_avg_diameter) wtofd ∧
    HasDerivAt (fun t => out_wbodywf zw_rf wtofd t) (J_wbodywf__fuselage_avg_diameter zw_rf wtofd)
      fuselage_avg_diameter :=
  ⟨d_wbodywf__zw_rf _ _ _ h0 h1 h2 h3 h4 h5 h6, d_wbodywf__wtofd _ _ _ h0 h1 h2 h3 h4 h5 h6,
    d_wbodywf__fuselage_avg_diameter _ _ _ h0 h1 h3 h4 h6⟩

example : ∃ zw_rf wtofd fuselage_avg_diameter : ℝ,
      0 < zw_rf ∧
      0 < wtofd ∧
      |(zw_rf + wtofd)| ≠ 1 ∧
      0 < 1 - ((zw_rf + wtofd) ^ 2) ∧
      zw_rf - wtofd ≠ 0 ∧
      |(zw_rf - wtofd)| ≠ 1 ∧
      0 < 1 - ((zw_rf - wtofd) ^ 2) :=
  ⟨1 / 2, 1 / 4, 2, by comp_example, by comp_example, by comp_example, by comp_example, by
    comp_example, by comp_example, by comp_example⟩

end Verif.Comp.AerodynamicsGaspBasedInterference.TopAndBottomWidth

namespace Verif.Comp.AerodynamicsGaspBasedInterference.WingFuselageInterferenceMission
open Real

/-- aviary/subsystems/aerodynamics/gasp_based/interference.py:403 -/
noncomputable def reli (gravity atmosphere_mach atmosphere_temperature atmosphere_kinematic_viscosity : ℝ) : ℝ :=
  (((sqrt (((7 / 5) * gravity) * (1333 / 25))) * atmosphere_mach) * (sqrt
    atmosphere_temperature)) / atmosphere_kinematic_viscosity

/-- aviary/subsystems/aerodynamics/gasp_based/interference.py:411 -/
noncomputable def cfin (atmosphere_mach : ℝ) : ℝ :=
  ((91 / 200) / (7 ^ ((129 / 50) : ℝ))) / ((1 + ((18 / 125) * (atmosphere_mach ^ 2))) ^ ((13 /
    20) : ℝ))

/-- aviary/subsystems/aerodynamics/gasp_based/interference.py:413 -/
noncomputable def few_over_sw (gravity wing_form_factor wing_average_chord atmosphere_mach atmosphere_temperature atmosphere_kinematic_viscosity : ℝ) : ℝ :=
  ((cfin atmosphere_mach) * wing_form_factor) * ((((log ((reli gravity atmosphere_mach
    atmosphere_temperature atmosphere_kinematic_viscosity) * wing_average_chord)) / (log 10)) /
    7) ^ ((-(13 / 5)) : ℝ))

/-- aviary/subsystems/aerodynamics/gasp_based/interference.py:415 -/
noncomputable def feiwf (gravity wing_form_factor wing_average_chord atmosphere_mach atmosphere_temperature atmosphere_kinematic_viscosity interference_independent_of_shielded_area drag_loss_due_to_shielded_wing_area : ℝ) : ℝ :=
  drag_loss_due_to_shielded_wing_area - ((few_over_sw gravity wing_form_factor
    wing_average_chord atmosphere_mach atmosphere_temperature atmosphere_kinematic_viscosity) *
    interference_independent_of_shielded_area)

/-- aviary/subsystems/aerodynamics/gasp_based/interference.py:424 -/
noncomputable def dreli_dem (gravity atmosphere_temperature atmosphere_kinematic_viscosity : ℝ) : ℝ :=
  ((sqrt (((7 / 5) * gravity) * (1333 / 25))) * (sqrt atmosphere_temperature)) /
    atmosphere_kinematic_viscosity

/-- aviary/subsystems/aerodynamics/gasp_based/interference.py:427 -/
noncomputable def dcfin_dem (atmosphere_mach : ℝ) : ℝ :=
  ((((-(13 / 20)) * (cfin atmosphere_mach)) / (1 + ((18 / 125) * (atmosphere_mach ^ 2)))) * (36
    / 125)) * atmosphere_mach

/-- Output `wing_fuselage_interference_flat_plate_equivalent` of `WingFuselageInterferenceMission.compute`, aviary/subsystems/aerodynamics/gasp_based/interference.py:417 -/
noncomputable def out_wing_fuselage_interference_flat_plate_equivalent (gravity wing_form_factor wing_average_chord atmosphere_mach atmosphere_temperature atmosphere_kinematic_viscosity interference_independent_of_shielded_area drag_loss_due_to_shielded_wing_area : ℝ) : ℝ :=
  feiwf gravity wing_form_factor wing_average_chord atmosphere_mach atmosphere_temperature
    atmosphere_kinematic_viscosity interference_independent_of_shielded_area
    drag_loss_due_to_shielded_wing_area

/-- Partial of `wing_fuselage_interference_flat_plate_equivalent` with respect to `drag_loss_due_to_shielded_wing_area` as set by `WingFuselageInterferenceMission`, aviary/subsystems/aerodynamics/gasp_based/interference.py:391 -/
noncomputable def J_wing_fuselage_interference_flat_plate_equivalent__drag_loss_due_to_shielded_wing_area : ℝ :=
  1

/-- Partial of `wing_fuselage_interference_flat_plate_equivalent` with respect to `wing_form_factor` as set by `WingFuselageInterferenceMission`, aviary/subsystems/aerodynamics/gasp_based/interference.py:430 -/
noncomputable def J_wing_fuselage_interference_flat_plate_equivalent__wing_form_factor (gravity wing_average_chord atmosphere_mach atmosphere_temperature atmosphere_kinematic_viscosity interference_independent_of_shielded_area : ℝ) : ℝ :=
  ((-(cfin atmosphere_mach)) * ((((log ((reli gravity atmosphere_mach atmosphere_temperature
    atmosphere_kinematic_viscosity) * wing_average_chord)) / (log 10)) / 7) ^ ((-(13 / 5)) :
    ℝ))) * interference_independent_of_shielded_area

/-- Partial of `wing_fuselage_interference_flat_plate_equivalent` with respect to `wing_average_chord` as set by `WingFuselageInterferenceMission`, aviary/subsystems/aerodynamics/gasp_based/interference.py:434 -/
noncomputable def J_wing_fuselage_interference_flat_plate_equivalent__wing_average_chord (gravity wing_form_factor wing_average_chord atmosphere_mach atmosphere_temperature atmosphere_kinematic_viscosity interference_independent_of_shielded_area : ℝ) : ℝ :=
  (((((13 / 5) * (cfin atmosphere_mach)) * wing_form_factor) * ((((log ((reli gravity
    atmosphere_mach atmosphere_temperature atmosphere_kinematic_viscosity) *
    wing_average_chord)) / (log 10)) / 7) ^ ((-(18 / 5)) : ℝ))) *
    interference_independent_of_shielded_area) / (((log 10) * wing_average_chord) * 7)

/-- Partial of `wing_fuselage_interference_flat_plate_equivalent` with respect to `atmosphere_mach` as set by `WingFuselageInterferenceMission`, aviary/subsystems/aerodynamics/gasp_based/interference.py:446 -/
noncomputable def J_wing_fuselage_interference_flat_plate_equivalent__atmosphere_mach (gravity wing_form_factor wing_average_chord atmosphere_mach atmosphere_temperature atmosphere_kinematic_viscosity interference_independent_of_shielded_area : ℝ) : ℝ :=
  ((-wing_form_factor) * interference_independent_of_shielded_area) * ((((((log ((reli gravity
    atmosphere_mach atmosphere_temperature atmosphere_kinematic_viscosity) *
    wing_average_chord)) / (log 10)) / 7) ^ ((-(13 / 5)) : ℝ)) * (dcfin_dem atmosphere_mach)) +
    ((cfin atmosphere_mach) * ((((-(13 / 5)) * ((((log ((reli gravity atmosphere_mach
    atmosphere_temperature atmosphere_kinematic_viscosity) * wing_average_chord)) / (log 10)) /
    7) ^ ((-(18 / 5)) : ℝ))) / (((log 10) * (reli gravity atmosphere_mach atmosphere_temperature
    atmosphere_kinematic_viscosity)) * 7)) * (dreli_dem gravity atmosphere_temperature
    atmosphere_kinematic_viscosity))))

/-- Partial of `wing_fuselage_interference_flat_plate_equivalent` with respect to `atmosphere_temperature` as set by `WingFuselageInterferenceMission`, aviary/subsystems/aerodynamics/gasp_based/interference.py:460 -/
noncomputable def J_wing_fuselage_interference_flat_plate_equivalent__atmosphere_temperature (gravity wing_form_factor wing_average_chord atmosphere_mach atmosphere_temperature atmosphere_kinematic_viscosity interference_independent_of_shielded_area : ℝ) : ℝ :=
  (((((((((-(cfin atmosphere_mach)) * wing_form_factor) * (-(13 / 5))) * ((((log ((reli gravity
    atmosphere_mach atmosphere_temperature atmosphere_kinematic_viscosity) *
    wing_average_chord)) / (log 10)) / 7) ^ ((-(18 / 5)) : ℝ))) *
    interference_independent_of_shielded_area) / (((log 10) * (reli gravity atmosphere_mach
    atmosphere_temperature atmosphere_kinematic_viscosity)) * 7)) * (sqrt (((7 / 5) * gravity) *
    (1333 / 25)))) * atmosphere_mach) * (1 / 2)) / (atmosphere_kinematic_viscosity * (sqrt
    atmosphere_temperature))

/-- Partial of `wing_fuselage_interference_flat_plate_equivalent` with respect to `atmosphere_kinematic_viscosity` as set by `WingFuselageInterferenceMission`, aviary/subsystems/aerodynamics/gasp_based/interference.py:476 -/
noncomputable def J_wing_fuselage_interference_flat_plate_equivalent__atmosphere_kinematic_viscosity (gravity wing_form_factor wing_average_chord atmosphere_mach atmosphere_temperature atmosphere_kinematic_viscosity interference_independent_of_shielded_area : ℝ) : ℝ :=
  (((((((((cfin atmosphere_mach) * wing_form_factor) * (-(13 / 5))) * ((((log ((reli gravity
    atmosphere_mach atmosphere_temperature atmosphere_kinematic_viscosity) *
    wing_average_chord)) / (log 10)) / 7) ^ ((-(18 / 5)) : ℝ))) *
    interference_independent_of_shielded_area) / (((log 10) * (reli gravity atmosphere_mach
    atmosphere_temperature atmosphere_kinematic_viscosity)) * 7)) * (sqrt (((7 / 5) * gravity) *
    (1333 / 25)))) * atmosphere_mach) * (sqrt atmosphere_temperature)) /
    (atmosphere_kinematic_viscosity ^ 2)

/-- Partial of `wing_fuselage_interference_flat_plate_equivalent` with respect to `interference_independent_of_shielded_area` as set by `WingFuselageInterferenceMission`, aviary/subsystems/aerodynamics/gasp_based/interference.py:492 -/
noncomputable def J_wing_fuselage_interference_flat_plate_equivalent__interference_independent_of_shielded_area (gravity wing_form_factor wing_average_chord atmosphere_mach atmosphere_temperature atmosphere_kinematic_viscosity : ℝ) : ℝ :=
  ((-(cfin atmosphere_mach)) * wing_form_factor) * ((((log ((reli gravity atmosphere_mach
    atmosphere_temperature atmosphere_kinematic_viscosity) * wing_average_chord)) / (log 10)) /
    7) ^ ((-(13 / 5)) : ℝ))

theorem d_wing_fuselage_interference_flat_plate_equivalent__wing_form_factor (gravity
    wing_form_factor wing_average_chord atmosphere_mach atmosphere_temperature
    atmosphere_kinematic_viscosity interference_independent_of_shielded_area
    drag_loss_due_to_shielded_wing_area : ℝ) (h0 : 0 < atmosphere_mach) (h1 : 0 < gravity) (h2 : 0
    < atmosphere_temperature) (h3 : 0 < atmosphere_kinematic_viscosity) (h4 : 0 <
    wing_average_chord) (h5 : log 10 ≠ 0) (h6 : 0 < log (((((sqrt (((7 / 5) * gravity) * (1333 /
    25))) * atmosphere_mach) * (sqrt atmosphere_temperature)) / atmosphere_kinematic_viscosity) *
    wing_average_chord)) (h7 : 0 < log 10) :
    HasDerivAt (fun t => out_wing_fuselage_interference_flat_plate_equivalent gravity t wing_average_chord atmosphere_mach atmosphere_temperature atmosphere_kinematic_viscosity interference_independent_of_shielded_area drag_loss_due_to_shielded_wing_area) (J_wing_fuselage_interference_flat_plate_equivalent__wing_form_factor gravity wing_average_chord atmosphere_mach atmosphere_temperature atmosphere_kinematic_viscosity interference_independent_of_shielded_area) wing_form_factor := by
  have e0 : ∀ x : ℝ, 0 < x → x ^ ((-(13 / 5)) : ℝ) = x ^ ((2 / 5) : ℝ) / x ^ 3 := fun x hx => rpow_down hx 3 (by norm_num)
  have e1 : ∀ x : ℝ, 0 < x → x ^ ((129 / 50) : ℝ) = x ^ ((29 / 50) : ℝ) * x ^ 2 := fun x hx => rpow_up hx 2 (by norm_num)
  simp only [out_wing_fuselage_interference_flat_plate_equivalent, J_wing_fuselage_interference_flat_plate_equivalent__wing_form_factor, feiwf, few_over_sw, reli, cfin, sqrt_eq_rpow]
  (apply hasDerivAt_of_eq; on_goal 1 => (repeat' comp_step))
  all_goals try comp_side
  all_goals try simp (disch := first | assumption | positivity) only [e0, e1, div_mul_eq_div_div, div_half, inv_half]
  all_goals try simp only [mul_zero, zero_mul, add_zero, zero_add, sub_zero, zero_sub, mul_one, one_mul]
  all_goals try push_cast
  all_goals comp_eq

theorem d_wing_fuselage_interference_flat_plate_equivalent__wing_average_chord (gravity
    wing_form_factor wing_average_chord atmosphere_mach atmosphere_temperature
    atmosphere_kinematic_viscosity interference_independent_of_shielded_area
    drag_loss_due_to_shielded_wing_area : ℝ) (h0 : 0 < atmosphere_mach) (h1 : 0 < gravity) (h2 : 0
    < atmosphere_temperature) (h3 : 0 < atmosphere_kinematic_viscosity) (h4 : 0 <
    wing_average_chord) (h5 : log 10 ≠ 0) (h6 : 0 < log (((((sqrt (((7 / 5) * gravity) * (1333 /
    25))) * atmosphere_mach) * (sqrt atmosphere_temperature)) / atmosphere_kinematic_viscosity) *
    wing_average_chord)) (h7 : 0 < log 10) :
    HasDerivAt (fun t => out_wing_fuselage_interference_flat_plate_equivalent gravity wing_form_factor t atmosphere_mach atmosphere_temperature atmosphere_kinematic_viscosity interference_independent_of_shielded_area drag_loss_due_to_shielded_wing_area) (J_wing_fuselage_interference_flat_plate_equivalent__wing_average_chord gravity wing_form_factor wing_average_chord atmosphere_mach atmosphere_temperature atmosphere_kinematic_viscosity interference_independent_of_shielded_area) wing_average_chord := by
  have hf6 : 0 < log ((reli gravity atmosphere_mach atmosphere_temperature atmosphere_kinematic_viscosity) * wing_average_chord) := by simp only [reli, cfin, feiwf, few_over_sw]; exact h6
  have hp0 : 0 < reli gravity atmosphere_mach atmosphere_temperature atmosphere_kinematic_viscosity := by simp only [reli, cfin, feiwf, few_over_sw]; comp_side
  have e0 : ∀ x : ℝ, 0 < x → x ^ ((-(18 / 5)) : ℝ) = x ^ ((2 / 5) : ℝ) / x ^ 4 := fun x hx => rpow_down hx 4 (by norm_num)
  have e1 : ∀ x : ℝ, 0 < x → x ^ ((-(13 / 5)) : ℝ) = x ^ ((2 / 5) : ℝ) / x ^ 3 := fun x hx => rpow_down hx 3 (by norm_num)
  have e2 : ∀ x : ℝ, 0 < x → x ^ ((129 / 50) : ℝ) = x ^ ((29 / 50) : ℝ) * x ^ 2 := fun x hx => rpow_up hx 2 (by norm_num)
  obtain ⟨D_few_over_sw, hD_few_over_sw, k_few_over_sw⟩ : ∃ D : ℝ, D = ((cfin atmosphere_mach) * wing_form_factor) * (((-(13 / 5)) * ((((log ((reli gravity atmosphere_mach atmosphere_temperature atmosphere_kinematic_viscosity) * wing_average_chord)) / (log 10)) / 7) ^ ((-(18 / 5)) : ℝ))) * ((((reli gravity atmosphere_mach atmosphere_temperature atmosphere_kinematic_viscosity) / ((reli gravity atmosphere_mach atmosphere_temperature atmosphere_kinematic_viscosity) * wing_average_chord)) / (log 10)) / 7)) ∧
      HasDerivAt (fun t => few_over_sw gravity wing_form_factor t atmosphere_mach atmosphere_temperature atmosphere_kinematic_viscosity) D wing_average_chord := by
    refine ⟨_, rfl, ?_⟩
    simp only [few_over_sw]
    apply hasDerivAt_of_eq; on_goal 1 => (repeat' comp_step)
    all_goals try first | comp_side | (apply HasDerivAt.continuousAt; (repeat' comp_step); all_goals comp_side)
    all_goals try simp (disch := first | assumption | positivity) only [e0, e1, e2, div_mul_eq_div_div, div_half, inv_half]
    all_goals try simp only [mul_zero, zero_mul, add_zero, zero_add, sub_zero, zero_sub, mul_one, one_mul, sub_self]
    all_goals try push_cast
    all_goals comp_eq
  obtain ⟨D_feiwf, hD_feiwf, k_feiwf⟩ : ∃ D : ℝ, D = -(D_few_over_sw * interference_independent_of_shielded_area) ∧
      HasDerivAt (fun t => feiwf gravity wing_form_factor t atmosphere_mach atmosphere_temperature atmosphere_kinematic_viscosity interference_independent_of_shielded_area drag_loss_due_to_shielded_wing_area) D wing_average_chord := by
    refine ⟨_, rfl, ?_⟩
    simp only [feiwf]
    apply hasDerivAt_of_eq; on_goal 1 => (repeat' comp_step)
    all_goals try first | comp_side | (apply HasDerivAt.continuousAt; (repeat' comp_step); all_goals comp_side)
    all_goals try simp (disch := first | assumption | positivity) only [e0, e1, e2, div_mul_eq_div_div, div_half, inv_half]
    all_goals try simp only [mul_zero, zero_mul, add_zero, zero_add, sub_zero, zero_sub, mul_one, one_mul, sub_self]
    all_goals try push_cast
    all_goals comp_eq
  try simp only [out_wing_fuselage_interference_flat_plate_equivalent, J_wing_fuselage_interference_flat_plate_equivalent__wing_average_chord]
  all_goals (apply hasDerivAt_of_eq; on_goal 1 => (repeat' comp_step))
  all_goals try first | comp_side | (apply HasDerivAt.continuousAt; (repeat' comp_step); all_goals comp_side)
  all_goals try simp only [hD_few_over_sw, hD_feiwf]
  all_goals try simp (disch := first | assumption | positivity) only [e0, e1, e2, div_mul_eq_div_div, div_half, inv_half]
  all_goals try simp only [mul_zero, zero_mul, add_zero, zero_add, sub_zero, zero_sub, mul_one, one_mul, sub_self]
  all_goals try push_cast
  all_goals comp_eq

theorem
    d_wing_fuselage_interference_flat_plate_equivalent__interference_independent_of_shielded_area
    (gravity wing_form_factor wing_average_chord atmosphere_mach atmosphere_temperature
    atmosphere_kinematic_viscosity interference_independent_of_shielded_area
    drag_loss_due_to_shielded_wing_area : ℝ) (h0 : 0 < atmosphere_mach) (h1 : 0 < gravity) (h2 : 0
    < atmosphere_temperature) (h3 : 0 < atmosphere_kinematic_viscosity) (h4 : 0 <
    wing_average_chord) (h5 : log 10 ≠ 0) (h6 : 0 < log (((((sqrt (((7 / 5) * gravity) * (1333 /
    25))) * atmosphere_mach) * (sqrt atmosphere_temperature)) / atmosphere_kinematic_viscosity) *
    wing_average_chord)) (h7 : 0 < log 10) :
    HasDerivAt (fun t => out_wing_fuselage_interference_flat_plate_equivalent gravity wing_form_factor wing_average_chord atmosphere_mach atmosphere_temperature atmosphere_kinematic_viscosity t drag_loss_due_to_shielded_wing_area) (J_wing_fuselage_interference_flat_plate_equivalent__interference_independent_of_shielded_area gravity wing_form_factor wing_average_chord atmosphere_mach atmosphere_temperature atmosphere_kinematic_viscosity) interference_independent_of_shielded_area := by
  have e0 : ∀ x : ℝ, 0 < x → x ^ ((-(13 / 5)) : ℝ) = x ^ ((2 / 5) : ℝ) / x ^ 3 := fun x hx => rpow_down hx 3 (by norm_num)
  have e1 : ∀ x : ℝ, 0 < x → x ^ ((129 / 50) : ℝ) = x ^ ((29 / 50) : ℝ) * x ^ 2 := fun x hx => rpow_up hx 2 (by norm_num)
  simp only [out_wing_fuselage_interference_flat_plate_equivalent, J_wing_fuselage_interference_flat_plate_equivalent__interference_independent_of_shielded_area, feiwf, few_over_sw, reli, cfin, sqrt_eq_rpow]
  (apply hasDerivAt_of_eq; on_goal 1 => (repeat' comp_step))
  all_goals try comp_side
  all_goals try simp (disch := first | assumption | positivity) only [e0, e1, div_mul_eq_div_div, div_half, inv_half]
  all_goals try simp only [mul_zero, zero_mul, add_zero, zero_add, sub_zero, zero_sub, mul_one, one_mul]
  all_goals try push_cast
  all_goals comp_eq

theorem d_wing_fuselage_interference_flat_plate_equivalent__drag_loss_due_to_shielded_wing_area
    (gravity wing_form_factor wing_average_chord atmosphere_mach atmosphere_temperature
    atmosphere_kinematic_viscosity interference_independent_of_shielded_area
    drag_loss_due_to_shielded_wing_area : ℝ) (h0 : 0 < atmosphere_mach) (h1 : 0 < gravity) (h2 : 0
    < atmosphere_temperature) (h3 : 0 < atmosphere_kinematic_viscosity) (h4 : 0 <
    wing_average_chord) (h5 : log 10 ≠ 0) (h6 : 0 < log (((((sqrt (((7 / 5) * gravity) * (1333 /
    25))) * atmosphere_mach) * (sqrt atmosphere_temperature)) / atmosphere_kinematic_viscosity) *
    wing_average_chord)) (h7 : 0 < log 10) :
    HasDerivAt (fun t => out_wing_fuselage_interference_flat_plate_equivalent gravity wing_form_factor wing_average_chord atmosphere_mach atmosphere_temperature atmosphere_kinematic_viscosity interference_independent_of_shielded_area t) (J_wing_fuselage_interference_flat_plate_equivalent__drag_loss_due_to_shielded_wing_area) drag_loss_due_to_shielded_wing_area := by
  have e0 : ∀ x : ℝ, 0 < x → x ^ ((-(13 / 5)) : ℝ) = x ^ ((2 / 5) : ℝ) / x ^ 3 := fun x hx => rpow_down hx 3 (by norm_num)
  have e1 : ∀ x : ℝ, 0 < x → x ^ ((129 / 50) : ℝ) = x ^ ((29 / 50) : ℝ) * x ^ 2 := fun x hx => rpow_up hx 2 (by norm_num)
  simp only [out_wing_fuselage_interference_flat_plate_equivalent, J_wing_fuselage_interference_flat_plate_equivalent__drag_loss_due_to_shielded_wing_area, feiwf, few_over_sw, reli, cfin, sqrt_eq_rpow]
  (apply hasDerivAt_of_eq; on_goal 1 => (repeat' comp_step))
  all_goals try comp_side
  all_goals try simp (disch := first | assumption | positivity) only [e0, e1, div_mul_eq_div_div, div_half, inv_half]
  all_goals try simp only [mul_zero, zero_mul, add_zero, zero_add, sub_zero, zero_sub, mul_one, one_mul]
  all_goals try push_cast
  all_goals comp_eq

/-- Partial derivatives of `WingFuselageInterferenceMission` that are proved correct (the rest is listed in the header). -/
theorem partials_partial (gravity wing_form_factor wing_average_chord atmosphere_mach
    atmosphere_temperature atmosphere_kinematic_viscosity
    interference_independent_of_shielded_area drag_loss_due_to_shielded_wing_area : ℝ) (h0 : 0 <
    atmosphere_mach) (h1 : 0 < gravity) (h2 : 0 < atmosphere_temperature) (h3 : 0 <
    atmosphere_kinematic_viscosity) (h4 : 0 < wing_average_chord) (h5 : log 10 ≠ 0) (h6 : 0 < log
    (((((sqrt (((7 / 5) * gravity) * (1333 / 25))) * atmosphere_mach) * (sqrt
    atmosphere_temperature)) / atmosphere_kinematic_viscosity) * wing_average_chord)) (h7 : 0 <
    log 10) :
    HasDerivAt (fun t => out_wing_fuselage_interference_flat_plate_equivalent gravity t
      wing_average_chord atmosphere_mach atmosphere_temperature atmosphere_kinematic_viscosity
      interference_independent_of_shielded_area drag_loss_due_to_shielded_wing_area)
      (J_wing_fuselage_interference_flat_plate_equivalent__wing_form_factor gravity
      wing_average_chord atmosphere_mach atmosphere_temperature atmosphere_kinematic_viscosity
      interference_independent_of_shielded_area) wing_form_factor ∧
    HasDerivAt (fun t => out_wing_fuselage_interference_flat_plate_equivalent gravity wing_form_factor
      t atmosphere_mach atmosphere_temperature atmosphere_kinematic_viscosity
      interference_independent_of_shielded_area drag_loss_due_to_shielded_wing_area)
      (J_wing_fuselage_interference_flat_plate_equivalent__wing_average_chord gravity
      wing_form_factor wing_average_chord atmosphere_mach atmosphere_temperature
      atmosphere_kinematic_viscosity interference_independent_of_shielded_area) wing_average_chord ∧
    HasDerivAt (fun t => out_wing_fuselage_interference_flat_plate_equivalent gravity wing_form_factor
      wing_average_chord atmosphere_mach atmosphere_temperature atmosphere_kinematic_viscosity t
      drag_loss_due_to_shielded_wing_area)
      (J_wing_fuselage_interference_flat_plate_equivalent__interference_independent_of_shielded_area
      gravity wing_form_factor wing_average_chord atmosphere_mach atmosphere_temperature
      atmosphere_kinematic_viscosity) interference_independent_of_shielded_area ∧
    HasDerivAt (fun t => out_wing_fuselage_interference_flat_plate_equivalent gravity wing_form_factor
      wing_average_chord atmosphere_mach atmosphere_temperature atmosphere_kinematic_viscosity
      interference_independent_of_shielded_area t)
      (J_wing_fuselage_interference_flat_plate_equivalent__drag_loss_due_to_shielded_wing_area)
      drag_loss_due_to_shielded_wing_area :=
  ⟨d_wing_fuselage_interference_flat_plate_equivalent__wing_form_factor _ _ _ _ _ _ _ _ h0 h1 h2
    h3 h4 h5 h6 h7, d_wing_fuselage_interference_flat_plate_equivalent__wing_average_chord _ _ _ _
    _ _ _ _ h0 h1 h2 h3 h4 h5 h6 h7,
    d_wing_fuselage_interference_flat_plate_equivalent__interference_independent_of_shielded_area
    _ _ _ _ _ _ _ _ h0 h1 h2 h3 h4 h5 h6 h7,
    d_wing_fuselage_interference_flat_plate_equivalent__drag_loss_due_to_shielded_wing_area _ _ _
    _ _ _ _ _ h0 h1 h2 h3 h4 h5 h6 h7⟩

end Verif.Comp.AerodynamicsGaspBasedInterference.WingFuselageInterferenceMission

