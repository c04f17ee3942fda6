import Verif.Lemmas.CompDeriv

/-! # Partial derivatives of the components of `aviary/subsystems/mass/flops_based/empty_margin.py`

One node of a vector component is modelled over the real numbers.  Each option that selects a
branch is fixed, one namespace per choice.  `out_x` is the output `x`, `J_x__y` the entry that
`compute_partials` (or `declare_partials` with `val`) assigns, `d_x__y` the proof that the entry is
the derivative.  Inputs an output does not take as argument have no influence on it. -/

set_option linter.all false

namespace Verif.Comp.MassFlopsBasedEmptyMargin.EmptyMassMargin
open Real

/-- Output `design_empty_mass_margin` of `EmptyMassMargin.compute`, aviary/subsystems/mass/flops_based/empty_margin.py:27 -/
noncomputable def out_design_empty_mass_margin (propulsion_mass design_structure_mass design_systems_and_equipment_mass design_empty_mass_margin_scaler : ℝ) : ℝ :=
  ((propulsion_mass + design_structure_mass) + design_systems_and_equipment_mass) *
    design_empty_mass_margin_scaler

/-- Partial of `design_empty_mass_margin` with respect to `propulsion_mass` as set by `EmptyMassMargin`, aviary/subsystems/mass/flops_based/empty_margin.py:37 -/
noncomputable def J_design_empty_mass_margin__propulsion_mass (design_empty_mass_margin_scaler : ℝ) : ℝ :=
  design_empty_mass_margin_scaler

/-- Partial of `design_empty_mass_margin` with respect to `design_structure_mass` as set by `EmptyMassMargin`, aviary/subsystems/mass/flops_based/empty_margin.py:38 -/
noncomputable def J_design_empty_mass_margin__design_structure_mass (design_empty_mass_margin_scaler : ℝ) : ℝ :=
  design_empty_mass_margin_scaler

/-- Partial of `design_empty_mass_margin` with respect to `design_systems_and_equipment_mass` as set by `EmptyMassMargin`, aviary/subsystems/mass/flops_based/empty_margin.py:39 -/
noncomputable def J_design_empty_mass_margin__design_systems_and_equipment_mass (design_empty_mass_margin_scaler : ℝ) : ℝ :=
  design_empty_mass_margin_scaler

/-- Partial of `design_empty_mass_margin` with respect to `design_empty_mass_margin_scaler` as set by `EmptyMassMargin`, aviary/subsystems/mass/flops_based/empty_margin.py:40 -/
noncomputable def J_design_empty_mass_margin__design_empty_mass_margin_scaler (propulsion_mass design_structure_mass design_systems_and_equipment_mass : ℝ) : ℝ :=
  (propulsion_mass + design_structure_mass) + design_systems_and_equipment_mass

theorem d_design_empty_mass_margin__propulsion_mass (propulsion_mass design_structure_mass
    design_systems_and_equipment_mass design_empty_mass_margin_scaler : ℝ)  :
    HasDerivAt (fun t => out_design_empty_mass_margin t design_structure_mass design_systems_and_equipment_mass design_empty_mass_margin_scaler) (J_design_empty_mass_margin__propulsion_mass design_empty_mass_margin_scaler) propulsion_mass := by
  simp only [out_design_empty_mass_margin, J_design_empty_mass_margin__propulsion_mass]
  (apply hasDerivAt_of_eq; on_goal 1 => (repeat' comp_step))
  all_goals try comp_side
  all_goals try simp only [mul_zero, zero_mul, add_zero, zero_add, sub_zero, zero_sub, mul_one, one_mul]
  all_goals try push_cast
  all_goals comp_eq

theorem d_design_empty_mass_margin__design_structure_mass (propulsion_mass design_structure_mass
    design_systems_and_equipment_mass design_empty_mass_margin_scaler : ℝ)  :
    HasDerivAt (fun t => out_design_empty_mass_margin propulsion_mass t design_systems_and_equipment_mass design_empty_mass_margin_scaler) (J_design_empty_mass_margin__design_structure_mass design_empty_mass_margin_scaler) design_structure_mass := by
  simp only [out_design_empty_mass_margin, J_design_empty_mass_margin__design_structure_mass]
  (apply hasDerivAt_of_eq; on_goal 1 => (repeat' comp_step))
  all_goals try comp_side
  all_goals try simp only [mul_zero, zero_mul, add_zero, zero_add, sub_zero, zero_sub, mul_one, one_mul]
  all_goals try push_cast
  all_goals comp_eq

theorem d_design_empty_mass_margin__design_systems_and_equipment_mass (propulsion_mass
    design_structure_mass design_systems_and_equipment_mass design_empty_mass_margin_scaler : ℝ)
    :
    HasDerivAt (fun t => out_design_empty_mass_margin propulsion_mass design_structure_mass t design_empty_mass_margin_scaler) (J_design_empty_mass_margin__design_systems_and_equipment_mass design_empty_mass_margin_scaler) design_systems_and_equipment_mass := by
  simp only [out_design_empty_mass_margin, J_design_empty_mass_margin__design_systems_and_equipment_mass]
  (apply hasDerivAt_of_eq; on_goal 1 => (repeat' comp_step))
  all_goals try comp_side
  all_goals try simp only [mul_zero, zero_mul, add_zero, zero_add, sub_zero, zero_sub, mul_one, one_mul]
  all_goals try push_cast
  all_goals comp_eq

theorem d_design_empty_mass_margin__design_empty_mass_margin_scaler (propulsion_mass
    design_structure_mass design_systems_and_equipment_mass design_empty_mass_margin_scaler : ℝ)
    :
    HasDerivAt (fun t => out_design_empty_mass_margin propulsion_mass design_structure_mass design_systems_and_equipment_mass t) (J_design_empty_mass_margin__design_empty_mass_margin_scaler propulsion_mass design_structure_mass design_systems_and_equipment_mass) design_empty_mass_margin_scaler := by
  simp only [out_design_empty_mass_margin, J_design_empty_mass_margin__design_empty_mass_margin_scaler]
  (apply hasDerivAt_of_eq; on_goal 1 => (repeat' comp_step))
  all_goals try comp_side
  all_goals try simp only [mul_zero, zero_mul, add_zero, zero_add, sub_zero, zero_sub, mul_one, one_mul]
  all_goals try push_cast
  all_goals comp_eq

/-- Every partial derivative set by `EmptyMassMargin` is the derivative of its output. -/
theorem partials (propulsion_mass design_structure_mass design_systems_and_equipment_mass
    design_empty_mass_margin_scaler : ℝ) :
    HasDerivAt (fun t => out_design_empty_mass_margin t design_structure_mass
      design_systems_and_equipment_mass design_empty_mass_margin_scaler)
      (J_design_empty_mass_margin__propulsion_mass design_empty_mass_margin_scaler)
      propulsion_mass ∧
    HasDerivAt (fun t => out_design_empty_mass_margin propulsion_mass t
      design_systems_and_equipment_mass design_empty_mass_margin_scaler)
      (J_design_empty_mass_margin__design_structure_mass design_empty_mass_margin_scaler)
      design_structure_mass ∧
    HasDerivAt (fun t => out_design_empty_mass_margin propulsion_mass design_structure_mass t
      design_empty_mass_margin_scaler)
      (J_design_empty_mass_margin__design_systems_and_equipment_mass
      design_empty_mass_margin_scaler) design_systems_and_equipment_mass ∧
    HasDerivAt (fun t => out_design_empty_mass_margin propulsion_mass design_structure_mass
      design_systems_and_equipment_mass t)
      (J_design_empty_mass_margin__design_empty_mass_margin_scaler propulsion_mass
      design_structure_mass design_systems_and_equipment_mass) design_empty_mass_margin_scaler :=
  ⟨d_design_empty_mass_margin__propulsion_mass _ _ _ _,
    d_design_empty_mass_margin__design_structure_mass _ _ _ _,
    d_design_empty_mass_margin__design_systems_and_equipment_mass _ _ _ _,
    d_design_empty_mass_margin__design_empty_mass_margin_scaler _ _ _ _⟩

end Verif.Comp.MassFlopsBasedEmptyMargin.EmptyMassMargin

