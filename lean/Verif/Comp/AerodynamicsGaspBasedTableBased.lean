import Verif.Lemmas.CompDeriv

/-! # Partial derivatives of the components of `aviary/subsystems/aerodynamics/gasp_based/table_based.py`

One node of a vector component is modelled over the real numbers.  Each option that selects a
branch is fixed, one namespace per choice.  `out_x` is the output `x`, `J_x__y` the entry that
`compute_partials` (or `declare_partials` with `val`) assigns, `d_x__y` the proof that the entry is
the derivative.  Inputs an output does not take as argument have no influence on it. -/

set_option linter.all false

namespace Verif.Comp.AerodynamicsGaspBasedTableBased.GearDragIncrement
open Real

/-- aviary/subsystems/aerodynamics/gasp_based/table_based.py:424 -/
noncomputable def grfe (design_gross_mass : ℝ) : ℝ :=
  (33 / 10000) * (design_gross_mass ^ ((157 / 200) : ℝ))

/-- aviary/subsystems/aerodynamics/gasp_based/table_based.py:426 -/
noncomputable def grcd (design_gross_mass wing_area : ℝ) : ℝ := (grfe design_gross_mass) / wing_area

/-- Output `dcd` of `GearDragIncrement.compute`, aviary/subsystems/aerodynamics/gasp_based/table_based.py:428 -/
noncomputable def out_dcd (design_gross_mass wing_area flap_defl : ℝ) : ℝ :=
  (grcd design_gross_mass wing_area) * (1 - (((90909 / 200000) * flap_defl) / 50))

/-- Partial of `dcd` with respect to `design_gross_mass` as set by `GearDragIncrement`, aviary/subsystems/aerodynamics/gasp_based/table_based.py:436 -/
noncomputable def J_dcd__design_gross_mass (design_gross_mass wing_area flap_defl : ℝ) : ℝ :=
  (((5181 / 2000000) * (design_gross_mass ^ ((-(43 / 200)) : ℝ))) / wing_area) * (1 - (((90909 /
    200000) * flap_defl) / 50))

/-- Partial of `dcd` with respect to `wing_area` as set by `GearDragIncrement`, aviary/subsystems/aerodynamics/gasp_based/table_based.py:441 -/
noncomputable def J_dcd__wing_area (design_gross_mass wing_area flap_defl : ℝ) : ℝ :=
  (-((grfe design_gross_mass) / (wing_area ^ 2))) * (1 - (((90909 / 200000) * flap_defl) / 50))

/-- Partial of `dcd` with respect to `flap_defl` as set by `GearDragIncrement`, aviary/subsystems/aerodynamics/gasp_based/table_based.py:442 -/
noncomputable def J_dcd__flap_defl (design_gross_mass wing_area : ℝ) : ℝ :=
  ((-(grcd design_gross_mass wing_area)) * (90909 / 200000)) / 50

theorem d_dcd__design_gross_mass (design_gross_mass wing_area flap_defl : ℝ) (h0 : 0 <
    design_gross_mass) (h1 : 0 < wing_area) :
    HasDerivAt (fun t => out_dcd t wing_area flap_defl) (J_dcd__design_gross_mass design_gross_mass wing_area flap_defl) design_gross_mass := by
  have e0 : ∀ x : ℝ, 0 < x → x ^ ((-(43 / 200)) : ℝ) = x ^ ((157 / 200) : ℝ) / x ^ 1 := fun x hx => rpow_down hx 1 (by norm_num)
  simp only [out_dcd, J_dcd__design_gross_mass, grcd, grfe]
  (apply hasDerivAt_of_eq; on_goal 1 => (repeat' comp_step))
  all_goals try comp_side
  all_goals try simp (disch := first | assumption | positivity) only [e0]
  all_goals try simp only [mul_zero, zero_mul, add_zero, zero_add, sub_zero, zero_sub, mul_one, one_mul]
  all_goals try push_cast
  all_goals comp_eq

theorem d_dcd__wing_area (design_gross_mass wing_area flap_defl : ℝ) (h0 : 0 < design_gross_mass)
    (h1 : 0 < wing_area) :
    HasDerivAt (fun t => out_dcd design_gross_mass t flap_defl) (J_dcd__wing_area design_gross_mass wing_area flap_defl) wing_area := by
  simp only [out_dcd, J_dcd__wing_area, grcd, grfe]
  (apply hasDerivAt_of_eq; on_goal 1 => (repeat' comp_step))
  all_goals try comp_side
  all_goals try simp only [mul_zero, zero_mul, add_zero, zero_add, sub_zero, zero_sub, mul_one, one_mul]
  all_goals try push_cast
  all_goals comp_eq

theorem d_dcd__flap_defl (design_gross_mass wing_area flap_defl : ℝ) (h0 : 0 < design_gross_mass)
    (h1 : 0 < wing_area) :
    HasDerivAt (fun t => out_dcd design_gross_mass wing_area t) (J_dcd__flap_defl design_gross_mass wing_area) flap_defl := by
  simp only [out_dcd, J_dcd__flap_defl, grcd, grfe]
  (apply hasDerivAt_of_eq; on_goal 1 => (repeat' comp_step))
  all_goals try comp_side
  all_goals try simp only [mul_zero, zero_mul, add_zero, zero_add, sub_zero, zero_sub, mul_one, one_mul]
  all_goals try push_cast
  all_goals comp_eq

/-- Every partial derivative set by `GearDragIncrement` is the derivative of its output. -/
theorem partials (design_gross_mass wing_area flap_defl : ℝ) (h0 : 0 < design_gross_mass) (h1 : 0
    < wing_area) :
    HasDerivAt (fun t => out_dcd t wing_area flap_defl) (J_dcd__design_gross_mass design_gross_mass
      wing_area flap_defl) design_gross_mass ∧
    HasDerivAt (fun t => out_dcd design_gross_mass t flap_defl) (J_dcd__wing_area design_gross_mass
      wing_area flap_defl) wing_area ∧
    HasDerivAt (fun t => out_dcd design_gross_mass wing_area t) (J_dcd__flap_defl design_gross_mass
      wing_area) flap_defl :=
  ⟨d_dcd__design_gross_mass _ _ _ h0 h1, d_dcd__wing_area _ _ _ h0 h1, d_dcd__flap_defl _ _ _ h0
    h1⟩

example : ∃ design_gross_mass wing_area flap_defl : ℝ,
      0 < design_gross_mass ∧
      0 < wing_area :=
  ⟨1, 1, 0, by comp_example, by comp_example⟩

end Verif.Comp.AerodynamicsGaspBasedTableBased.GearDragIncrement

