import Verif.Lemmas.CompDeriv

/-! # Partial derivatives of the components of `aviary/subsystems/mass/gasp_based/wing.py`

One node of a vector component is modelled over the real numbers.  Each option that selects a
branch is fixed, one namespace per choice.  `out_x` is the output `x`, `J_x__y` the entry that
`compute_partials` (or `declare_partials` with `val`) assigns, `d_x__y` the proof that the entry is
the derivative.  Inputs an output does not take as argument have no influence on it. -/

set_option linter.all false

namespace Verif.Comp.MassGaspBasedWing.StrutAndFoldMass_winghasstrut_winghasfold
open Real

/-- aviary/subsystems/mass/gasp_based/wing.py:301 -/
noncomputable def strut_wt (isolated_wing_mass strut_mass_coefficient : ℝ) : ℝ :=
  strut_mass_coefficient * isolated_wing_mass

/-- aviary/subsystems/mass/gasp_based/wing.py:310 -/
noncomputable def wt_per_area (isolated_wing_mass wing_area : ℝ) : ℝ :=
  isolated_wing_mass / wing_area

/-- aviary/subsystems/mass/gasp_based/wing.py:311 -/
noncomputable def temp_fold_wt (isolated_wing_mass wing_area wing_folding_area : ℝ) : ℝ :=
  wing_folding_area * (wt_per_area isolated_wing_mass wing_area)

/-- aviary/subsystems/mass/gasp_based/wing.py:312 -/
noncomputable def fold_wt (isolated_wing_mass wing_area wing_folding_area wing_fold_mass_coefficient : ℝ) : ℝ :=
  wing_fold_mass_coefficient * (temp_fold_wt isolated_wing_mass wing_area wing_folding_area)

/-- Output `strut_mass` of `StrutAndFoldMass.compute`, aviary/subsystems/mass/gasp_based/wing.py:316 -/
noncomputable def out_strut_mass (isolated_wing_mass strut_mass_coefficient : ℝ) : ℝ :=
  strut_wt isolated_wing_mass strut_mass_coefficient

/-- Output `wing_fold_mass` of `StrutAndFoldMass.compute`, aviary/subsystems/mass/gasp_based/wing.py:317 -/
noncomputable def out_wing_fold_mass (isolated_wing_mass wing_area wing_folding_area wing_fold_mass_coefficient : ℝ) : ℝ :=
  fold_wt isolated_wing_mass wing_area wing_folding_area wing_fold_mass_coefficient

/-- Partial of `strut_mass` with respect to `strut_mass_coefficient` as set by `StrutAndFoldMass`, aviary/subsystems/mass/gasp_based/wing.py:325 -/
noncomputable def J_strut_mass__strut_mass_coefficient (isolated_wing_mass : ℝ) : ℝ :=
  isolated_wing_mass

/-- Partial of `strut_mass` with respect to `isolated_wing_mass` as set by `StrutAndFoldMass`, aviary/subsystems/mass/gasp_based/wing.py:328 -/
noncomputable def J_strut_mass__isolated_wing_mass (strut_mass_coefficient : ℝ) : ℝ :=
  strut_mass_coefficient

/-- Partial of `wing_fold_mass` with respect to `wing_area` as set by `StrutAndFoldMass`, aviary/subsystems/mass/gasp_based/wing.py:338 -/
noncomputable def J_wing_fold_mass__wing_area (isolated_wing_mass wing_area wing_folding_area wing_fold_mass_coefficient : ℝ) : ℝ :=
  (((-wing_fold_mass_coefficient) * wing_folding_area) * isolated_wing_mass) / (wing_area ^ 2)

/-- Partial of `wing_fold_mass` with respect to `wing_folding_area` as set by `StrutAndFoldMass`, aviary/subsystems/mass/gasp_based/wing.py:341 -/
noncomputable def J_wing_fold_mass__wing_folding_area (isolated_wing_mass wing_area wing_fold_mass_coefficient : ℝ) : ℝ :=
  wing_fold_mass_coefficient * (wt_per_area isolated_wing_mass wing_area)

/-- Partial of `wing_fold_mass` with respect to `wing_fold_mass_coefficient` as set by `StrutAndFoldMass`, aviary/subsystems/mass/gasp_based/wing.py:344 -/
noncomputable def J_wing_fold_mass__wing_fold_mass_coefficient (isolated_wing_mass wing_area wing_folding_area : ℝ) : ℝ :=
  temp_fold_wt isolated_wing_mass wing_area wing_folding_area

/-- Partial of `wing_fold_mass` with respect to `isolated_wing_mass` as set by `StrutAndFoldMass`, aviary/subsystems/mass/gasp_based/wing.py:347 -/
noncomputable def J_wing_fold_mass__isolated_wing_mass (wing_area wing_folding_area wing_fold_mass_coefficient : ℝ) : ℝ :=
  (wing_fold_mass_coefficient * wing_folding_area) / wing_area

theorem d_strut_mass__isolated_wing_mass (isolated_wing_mass strut_mass_coefficient : ℝ)  :
    HasDerivAt (fun t => out_strut_mass t strut_mass_coefficient) (J_strut_mass__isolated_wing_mass strut_mass_coefficient) isolated_wing_mass := by
  simp only [out_strut_mass, J_strut_mass__isolated_wing_mass, strut_wt]
  (apply hasDerivAt_of_eq; on_goal 1 => (repeat' comp_step))
  all_goals try comp_side
  all_goals try simp only [mul_zero, zero_mul, add_zero, zero_add, sub_zero, zero_sub, mul_one, one_mul]
  all_goals try push_cast
  all_goals comp_eq

theorem d_strut_mass__strut_mass_coefficient (isolated_wing_mass strut_mass_coefficient : ℝ)  :
    HasDerivAt (fun t => out_strut_mass isolated_wing_mass t) (J_strut_mass__strut_mass_coefficient isolated_wing_mass) strut_mass_coefficient := by
  simp only [out_strut_mass, J_strut_mass__strut_mass_coefficient, strut_wt]
  (apply hasDerivAt_of_eq; on_goal 1 => (repeat' comp_step))
  all_goals try comp_side
  all_goals try simp only [mul_zero, zero_mul, add_zero, zero_add, sub_zero, zero_sub, mul_one, one_mul]
  all_goals try push_cast
  all_goals comp_eq

theorem d_wing_fold_mass__isolated_wing_mass (isolated_wing_mass wing_area wing_folding_area
    wing_fold_mass_coefficient : ℝ) (h0 : 0 < wing_area) :
    HasDerivAt (fun t => out_wing_fold_mass t wing_area wing_folding_area wing_fold_mass_coefficient) (J_wing_fold_mass__isolated_wing_mass wing_area wing_folding_area wing_fold_mass_coefficient) isolated_wing_mass := by
  simp only [out_wing_fold_mass, J_wing_fold_mass__isolated_wing_mass, fold_wt, temp_fold_wt, wt_per_area]
  (apply hasDerivAt_of_eq; on_goal 1 => (repeat' comp_step))
  all_goals try comp_side
  all_goals try simp only [mul_zero, zero_mul, add_zero, zero_add, sub_zero, zero_sub, mul_one, one_mul]
  all_goals try push_cast
  all_goals comp_eq

theorem d_wing_fold_mass__wing_area (isolated_wing_mass wing_area wing_folding_area
    wing_fold_mass_coefficient : ℝ) (h0 : 0 < wing_area) :
    HasDerivAt (fun t => out_wing_fold_mass isolated_wing_mass t wing_folding_area wing_fold_mass_coefficient) (J_wing_fold_mass__wing_area isolated_wing_mass wing_area wing_folding_area wing_fold_mass_coefficient) wing_area := by
  simp only [out_wing_fold_mass, J_wing_fold_mass__wing_area, fold_wt, temp_fold_wt, wt_per_area]
  (apply hasDerivAt_of_eq; on_goal 1 => (repeat' comp_step))
  all_goals try comp_side
  all_goals try simp only [mul_zero, zero_mul, add_zero, zero_add, sub_zero, zero_sub, mul_one, one_mul]
  all_goals try push_cast
  all_goals comp_eq

theorem d_wing_fold_mass__wing_folding_area (isolated_wing_mass wing_area wing_folding_area
    wing_fold_mass_coefficient : ℝ) (h0 : 0 < wing_area) :
    HasDerivAt (fun t => out_wing_fold_mass isolated_wing_mass wing_area t wing_fold_mass_coefficient) (J_wing_fold_mass__wing_folding_area isolated_wing_mass wing_area wing_fold_mass_coefficient) wing_folding_area := by
  simp only [out_wing_fold_mass, J_wing_fold_mass__wing_folding_area, fold_wt, temp_fold_wt, wt_per_area]
  (apply hasDerivAt_of_eq; on_goal 1 => (repeat' comp_step))
  all_goals try comp_side
  all_goals try simp only [mul_zero, zero_mul, add_zero, zero_add, sub_zero, zero_sub, mul_one, one_mul]
  all_goals try push_cast
  all_goals comp_eq

theorem d_wing_fold_mass__wing_fold_mass_coefficient (isolated_wing_mass wing_area
    wing_folding_area wing_fold_mass_coefficient : ℝ) (h0 : 0 < wing_area) :
    HasDerivAt (fun t => out_wing_fold_mass isolated_wing_mass wing_area wing_folding_area t) (J_wing_fold_mass__wing_fold_mass_coefficient isolated_wing_mass wing_area wing_folding_area) wing_fold_mass_coefficient := by
  simp only [out_wing_fold_mass, J_wing_fold_mass__wing_fold_mass_coefficient, fold_wt, temp_fold_wt, wt_per_area]
  (apply hasDerivAt_of_eq; on_goal 1 => (repeat' comp_step))
  all_goals try comp_side
  all_goals try simp only [mul_zero, zero_mul, add_zero, zero_add, sub_zero, zero_sub, mul_one, one_mul]
  all_goals try push_cast
  all_goals comp_eq

/-- Every partial derivative set by `StrutAndFoldMass` is the derivative of its output. -/
theorem partials (isolated_wing_mass strut_mass_coefficient wing_area wing_folding_area
    wing_fold_mass_coefficient : ℝ) (h0 : 0 < wing_area) :
    HasDerivAt (fun t => out_strut_mass t strut_mass_coefficient) (J_strut_mass__isolated_wing_mass
      strut_mass_coefficient) isolated_wing_mass ∧
    HasDerivAt (fun t => out_strut_mass isolated_wing_mass t) (J_strut_mass__strut_mass_coefficient
      isolated_wing_mass) strut_mass_coefficient ∧
    HasDerivAt (fun t => out_wing_fold_mass t wing_area wing_folding_area wing_fold_mass_coefficient)
      (J_wing_fold_mass__isolated_wing_mass wing_area wing_folding_area
      wing_fold_mass_coefficient) isolated_wing_mass ∧
    HasDerivAt (fun t => out_wing_fold_mass isolated_wing_mass t wing_folding_area
      wing_fold_mass_coefficient) (J_wing_fold_mass__wing_area isolated_wing_mass wing_area
      wing_folding_area wing_fold_mass_coefficient) wing_area ∧
    HasDerivAt (fun t => out_wing_fold_mass isolated_wing_mass wing_area t wing_fold_mass_coefficient)
      (J_wing_fold_mass__wing_folding_area isolated_wing_mass wing_area
      wing_fold_mass_coefficient) wing_folding_area ∧
    HasDerivAt (fun t => out_wing_fold_mass isolated_wing_mass wing_area wing_folding_area t)
      (J_wing_fold_mass__wing_fold_mass_coefficient isolated_wing_mass wing_area
      wing_folding_area) wing_fold_mass_coefficient :=
  ⟨d_strut_mass__isolated_wing_mass _ _, d_strut_mass__strut_mass_coefficient _ _,
    d_wing_fold_mass__isolated_wing_mass _ _ _ _ h0, d_wing_fold_mass__wing_area _ _ _ _ h0,
    d_wing_fold_mass__wing_folding_area _ _ _ _ h0, d_wing_fold_mass__wing_fold_mass_coefficient _
    _ _ _ h0⟩

example : ∃ isolated_wing_mass strut_mass_coefficient wing_area wing_folding_area
      wing_fold_mass_coefficient : ℝ,
      0 < wing_area :=
  ⟨0, 0, 1, 0, 0, by comp_example⟩

end Verif.Comp.MassGaspBasedWing.StrutAndFoldMass_winghasstrut_winghasfold

namespace Verif.Comp.MassGaspBasedWing.StrutAndFoldMass_winghasstrut_no_winghasfold
open Real

/-- aviary/subsystems/mass/gasp_based/wing.py:301 -/
noncomputable def strut_wt (isolated_wing_mass strut_mass_coefficient : ℝ) : ℝ :=
  strut_mass_coefficient * isolated_wing_mass

/-- Output `strut_mass` of `StrutAndFoldMass.compute`, aviary/subsystems/mass/gasp_based/wing.py:316 -/
noncomputable def out_strut_mass (isolated_wing_mass strut_mass_coefficient : ℝ) : ℝ :=
  strut_wt isolated_wing_mass strut_mass_coefficient

/-- Output `wing_fold_mass` of `StrutAndFoldMass.compute`, aviary/subsystems/mass/gasp_based/wing.py:317 -/
noncomputable def out_wing_fold_mass : ℝ := 0

/-- Partial of `strut_mass` with respect to `strut_mass_coefficient` as set by `StrutAndFoldMass`, aviary/subsystems/mass/gasp_based/wing.py:325 -/
noncomputable def J_strut_mass__strut_mass_coefficient (isolated_wing_mass : ℝ) : ℝ :=
  isolated_wing_mass

/-- Partial of `strut_mass` with respect to `isolated_wing_mass` as set by `StrutAndFoldMass`, aviary/subsystems/mass/gasp_based/wing.py:328 -/
noncomputable def J_strut_mass__isolated_wing_mass (strut_mass_coefficient : ℝ) : ℝ :=
  strut_mass_coefficient

theorem d_strut_mass__isolated_wing_mass (isolated_wing_mass strut_mass_coefficient : ℝ)  :
    HasDerivAt (fun t => out_strut_mass t strut_mass_coefficient) (J_strut_mass__isolated_wing_mass strut_mass_coefficient) isolated_wing_mass := by
  simp only [out_strut_mass, J_strut_mass__isolated_wing_mass, strut_wt]
  (apply hasDerivAt_of_eq; on_goal 1 => (repeat' comp_step))
  all_goals try comp_side
  all_goals try simp only [mul_zero, zero_mul, add_zero, zero_add, sub_zero, zero_sub, mul_one, one_mul]
  all_goals try push_cast
  all_goals comp_eq

theorem d_strut_mass__strut_mass_coefficient (isolated_wing_mass strut_mass_coefficient : ℝ)  :
    HasDerivAt (fun t => out_strut_mass isolated_wing_mass t) (J_strut_mass__strut_mass_coefficient isolated_wing_mass) strut_mass_coefficient := by
  simp only [out_strut_mass, J_strut_mass__strut_mass_coefficient, strut_wt]
  (apply hasDerivAt_of_eq; on_goal 1 => (repeat' comp_step))
  all_goals try comp_side
  all_goals try simp only [mul_zero, zero_mul, add_zero, zero_add, sub_zero, zero_sub, mul_one, one_mul]
  all_goals try push_cast
  all_goals comp_eq

/-- Every partial derivative set by `StrutAndFoldMass` is the derivative of its output. -/
theorem partials (isolated_wing_mass strut_mass_coefficient : ℝ) :
    HasDerivAt (fun t => out_strut_mass t strut_mass_coefficient) (J_strut_mass__isolated_wing_mass
      strut_mass_coefficient) isolated_wing_mass ∧
    HasDerivAt (fun t => out_strut_mass isolated_wing_mass t) (J_strut_mass__strut_mass_coefficient
      isolated_wing_mass) strut_mass_coefficient :=
  ⟨d_strut_mass__isolated_wing_mass _ _, d_strut_mass__strut_mass_coefficient _ _⟩

end Verif.Comp.MassGaspBasedWing.StrutAndFoldMass_winghasstrut_no_winghasfold

namespace Verif.Comp.MassGaspBasedWing.StrutAndFoldMass_no_winghasstrut_winghasfold
open Real

/-- aviary/subsystems/mass/gasp_based/wing.py:310 -/
noncomputable def wt_per_area (isolated_wing_mass wing_area : ℝ) : ℝ :=
  isolated_wing_mass / wing_area

/-- aviary/subsystems/mass/gasp_based/wing.py:311 -/
noncomputable def temp_fold_wt (isolated_wing_mass wing_area wing_folding_area : ℝ) : ℝ :=
  wing_folding_area * (wt_per_area isolated_wing_mass wing_area)

/-- aviary/subsystems/mass/gasp_based/wing.py:312 -/
noncomputable def fold_wt (isolated_wing_mass wing_area wing_folding_area wing_fold_mass_coefficient : ℝ) : ℝ :=
  wing_fold_mass_coefficient * (temp_fold_wt isolated_wing_mass wing_area wing_folding_area)

/-- Output `strut_mass` of `StrutAndFoldMass.compute`, aviary/subsystems/mass/gasp_based/wing.py:316 -/
noncomputable def out_strut_mass : ℝ := 0

/-- Output `wing_fold_mass` of `StrutAndFoldMass.compute`, aviary/subsystems/mass/gasp_based/wing.py:317 -/
noncomputable def out_wing_fold_mass (isolated_wing_mass wing_area wing_folding_area wing_fold_mass_coefficient : ℝ) : ℝ :=
  fold_wt isolated_wing_mass wing_area wing_folding_area wing_fold_mass_coefficient

/-- Partial of `wing_fold_mass` with respect to `wing_area` as set by `StrutAndFoldMass`, aviary/subsystems/mass/gasp_based/wing.py:338 -/
noncomputable def J_wing_fold_mass__wing_area (isolated_wing_mass wing_area wing_folding_area wing_fold_mass_coefficient : ℝ) : ℝ :=
  (((-wing_fold_mass_coefficient) * wing_folding_area) * isolated_wing_mass) / (wing_area ^ 2)

/-- Partial of `wing_fold_mass` with respect to `wing_folding_area` as set by `StrutAndFoldMass`, aviary/subsystems/mass/gasp_based/wing.py:341 -/
noncomputable def J_wing_fold_mass__wing_folding_area (isolated_wing_mass wing_area wing_fold_mass_coefficient : ℝ) : ℝ :=
  wing_fold_mass_coefficient * (wt_per_area isolated_wing_mass wing_area)

/-- Partial of `wing_fold_mass` with respect to `wing_fold_mass_coefficient` as set by `StrutAndFoldMass`, aviary/subsystems/mass/gasp_based/wing.py:344 -/
noncomputable def J_wing_fold_mass__wing_fold_mass_coefficient (isolated_wing_mass wing_area wing_folding_area : ℝ) : ℝ :=
  temp_fold_wt isolated_wing_mass wing_area wing_folding_area

/-- Partial of `wing_fold_mass` with respect to `isolated_wing_mass` as set by `StrutAndFoldMass`, aviary/subsystems/mass/gasp_based/wing.py:347 -/
noncomputable def J_wing_fold_mass__isolated_wing_mass (wing_area wing_folding_area wing_fold_mass_coefficient : ℝ) : ℝ :=
  (wing_fold_mass_coefficient * wing_folding_area) / wing_area

theorem d_wing_fold_mass__isolated_wing_mass (isolated_wing_mass wing_area wing_folding_area
    wing_fold_mass_coefficient : ℝ) (h0 : 0 < wing_area) :
    HasDerivAt (fun t => out_wing_fold_mass t wing_area wing_folding_area wing_fold_mass_coefficient) (J_wing_fold_mass__isolated_wing_mass wing_area wing_folding_area wing_fold_mass_coefficient) isolated_wing_mass := by
  simp only [out_wing_fold_mass, J_wing_fold_mass__isolated_wing_mass, fold_wt, temp_fold_wt, wt_per_area]
  (apply hasDerivAt_of_eq; on_goal 1 => (repeat' comp_step))
  all_goals try comp_side
  all_goals try simp only [mul_zero, zero_mul, add_zero, zero_add, sub_zero, zero_sub, mul_one, one_mul]
  all_goals try push_cast
  all_goals comp_eq

theorem d_wing_fold_mass__wing_area (isolated_wing_mass wing_area wing_folding_area
    wing_fold_mass_coefficient : ℝ) (h0 : 0 < wing_area) :
    HasDerivAt (fun t => out_wing_fold_mass isolated_wing_mass t wing_folding_area wing_fold_mass_coefficient) (J_wing_fold_mass__wing_area isolated_wing_mass wing_area wing_folding_area wing_fold_mass_coefficient) wing_area := by
  simp only [out_wing_fold_mass, J_wing_fold_mass__wing_area, fold_wt, temp_fold_wt, wt_per_area]
  (apply hasDerivAt_of_eq; on_goal 1 => (repeat' comp_step))
  all_goals try comp_side
  all_goals try simp only [mul_zero, zero_mul, add_zero, zero_add, sub_zero, zero_sub, mul_one, one_mul]
  all_goals try push_cast
  all_goals comp_eq

theorem d_wing_fold_mass__wing_folding_area (isolated_wing_mass wing_area wing_folding_area
    wing_fold_mass_coefficient : ℝ) (h0 : 0 < wing_area) :
    HasDerivAt (fun t => out_wing_fold_mass isolated_wing_mass wing_area t wing_fold_mass_coefficient) (J_wing_fold_mass__wing_folding_area isolated_wing_mass wing_area wing_fold_mass_coefficient) wing_folding_area := by
  simp only [out_wing_fold_mass, J_wing_fold_mass__wing_folding_area, fold_wt, temp_fold_wt, wt_per_area]
  (apply hasDerivAt_of_eq; on_goal 1 => (repeat' comp_step))
  all_goals try comp_side
  all_goals try simp only [mul_zero, zero_mul, add_zero, zero_add, sub_zero, zero_sub, mul_one, one_mul]
  all_goals try push_cast
  all_goals comp_eq

theorem d_wing_fold_mass__wing_fold_mass_coefficient (isolated_wing_mass wing_area
    wing_folding_area wing_fold_mass_coefficient : ℝ) (h0 : 0 < wing_area) :
    HasDerivAt (fun t => out_wing_fold_mass isolated_wing_mass wing_area wing_folding_area t) (J_wing_fold_mass__wing_fold_mass_coefficient isolated_wing_mass wing_area wing_folding_area) wing_fold_mass_coefficient := by
  simp only [out_wing_fold_mass, J_wing_fold_mass__wing_fold_mass_coefficient, fold_wt, temp_fold_wt, wt_per_area]
  (apply hasDerivAt_of_eq; on_goal 1 => (repeat' comp_step))
  all_goals try comp_side
  all_goals try simp only [mul_zero, zero_mul, add_zero, zero_add, sub_zero, zero_sub, mul_one, one_mul]
  all_goals try push_cast
  all_goals comp_eq

/-- Every partial derivative set by `StrutAndFoldMass` is the derivative of its output. -/
theorem partials (isolated_wing_mass wing_area wing_folding_area wing_fold_mass_coefficient : ℝ)
    (h0 : 0 < wing_area) :
    HasDerivAt (fun t => out_wing_fold_mass t wing_area wing_folding_area wing_fold_mass_coefficient)
      (J_wing_fold_mass__isolated_wing_mass wing_area wing_folding_area
      wing_fold_mass_coefficient) isolated_wing_mass ∧
    HasDerivAt (fun t => out_wing_fold_mass isolated_wing_mass t wing_folding_area
      wing_fold_mass_coefficient) (J_wing_fold_mass__wing_area isolated_wing_mass wing_area
      wing_folding_area wing_fold_mass_coefficient) wing_area ∧
    HasDerivAt (fun t => out_wing_fold_mass isolated_wing_mass wing_area t wing_fold_mass_coefficient)
      (J_wing_fold_mass__wing_folding_area isolated_wing_mass wing_area
      wing_fold_mass_coefficient) wing_folding_area ∧
    HasDerivAt (fun t => out_wing_fold_mass isolated_wing_mass wing_area wing_folding_area t)
      (J_wing_fold_mass__wing_fold_mass_coefficient isolated_wing_mass wing_area
      wing_folding_area) wing_fold_mass_coefficient :=
  ⟨d_wing_fold_mass__isolated_wing_mass _ _ _ _ h0, d_wing_fold_mass__wing_area _ _ _ _ h0,
    d_wing_fold_mass__wing_folding_area _ _ _ _ h0, d_wing_fold_mass__wing_fold_mass_coefficient _
    _ _ _ h0⟩

example : ∃ isolated_wing_mass wing_area wing_folding_area wing_fold_mass_coefficient : ℝ,
      0 < wing_area :=
  ⟨0, 1, 0, 0, by comp_example⟩

end Verif.Comp.MassGaspBasedWing.StrutAndFoldMass_no_winghasstrut_winghasfold

namespace Verif.Comp.MassGaspBasedWing.WingMassTotal
open Real

/-- aviary/subsystems/mass/gasp_based/wing.py:379 -/
noncomputable def total_wing_wt (isolated_wing_mass strut_mass wing_fold_mass : ℝ) : ℝ :=
  (isolated_wing_mass + strut_mass) + wing_fold_mass

/-- Output `wing_mass` of `WingMassTotal.compute`, aviary/subsystems/mass/gasp_based/wing.py:380 -/
noncomputable def out_wing_mass (wing_mass_scaler isolated_wing_mass strut_mass wing_fold_mass : ℝ) : ℝ :=
  wing_mass_scaler * (total_wing_wt isolated_wing_mass strut_mass wing_fold_mass)

/-- Partial of `wing_mass` with respect to `isolated_wing_mass` as set by `WingMassTotal`, aviary/subsystems/mass/gasp_based/wing.py:388 -/
noncomputable def J_wing_mass__isolated_wing_mass (wing_mass_scaler : ℝ) : ℝ := wing_mass_scaler

/-- Partial of `wing_mass` with respect to `strut_mass` as set by `WingMassTotal`, aviary/subsystems/mass/gasp_based/wing.py:390 -/
noncomputable def J_wing_mass__strut_mass (wing_mass_scaler : ℝ) : ℝ := wing_mass_scaler

/-- Partial of `wing_mass` with respect to `wing_fold_mass` as set by `WingMassTotal`, aviary/subsystems/mass/gasp_based/wing.py:392 -/
noncomputable def J_wing_mass__wing_fold_mass (wing_mass_scaler : ℝ) : ℝ := wing_mass_scaler

/-- Partial of `wing_mass` with respect to `wing_mass_scaler` as set by `WingMassTotal`, aviary/subsystems/mass/gasp_based/wing.py:394 -/
noncomputable def J_wing_mass__wing_mass_scaler (isolated_wing_mass strut_mass wing_fold_mass : ℝ) : ℝ :=
  (isolated_wing_mass + strut_mass) + wing_fold_mass

theorem d_wing_mass__wing_mass_scaler (wing_mass_scaler isolated_wing_mass strut_mass
    wing_fold_mass : ℝ)  :
    HasDerivAt (fun t => out_wing_mass t isolated_wing_mass strut_mass wing_fold_mass) (J_wing_mass__wing_mass_scaler isolated_wing_mass strut_mass wing_fold_mass) wing_mass_scaler := by
  simp only [out_wing_mass, J_wing_mass__wing_mass_scaler, total_wing_wt]
  (apply hasDerivAt_of_eq; on_goal 1 => (repeat' comp_step))
  all_goals try comp_side
  all_goals try simp only [mul_zero, zero_mul, add_zero, zero_add, sub_zero, zero_sub, mul_one, one_mul]
  all_goals try push_cast
  all_goals comp_eq

theorem d_wing_mass__isolated_wing_mass (wing_mass_scaler isolated_wing_mass strut_mass
    wing_fold_mass : ℝ)  :
    HasDerivAt (fun t => out_wing_mass wing_mass_scaler t strut_mass wing_fold_mass) (J_wing_mass__isolated_wing_mass wing_mass_scaler) isolated_wing_mass := by
  simp only [out_wing_mass, J_wing_mass__isolated_wing_mass, total_wing_wt]
  (apply hasDerivAt_of_eq; on_goal 1 => (repeat' comp_step))
  all_goals try comp_side
  all_goals try simp only [mul_zero, zero_mul, add_zero, zero_add, sub_zero, zero_sub, mul_one, one_mul]
  all_goals try push_cast
  all_goals comp_eq

theorem d_wing_mass__strut_mass (wing_mass_scaler isolated_wing_mass strut_mass wing_fold_mass :
    ℝ)  :
    HasDerivAt (fun t => out_wing_mass wing_mass_scaler isolated_wing_mass t wing_fold_mass) (J_wing_mass__strut_mass wing_mass_scaler) strut_mass := by
  simp only [out_wing_mass, J_wing_mass__strut_mass, total_wing_wt]
  (apply hasDerivAt_of_eq; on_goal 1 => (repeat' comp_step))
  all_goals try comp_side
  all_goals try simp only [mul_zero, zero_mul, add_zero, zero_add, sub_zero, zero_sub, mul_one, one_mul]
  all_goals try push_cast
  all_goals comp_eq

theorem d_wing_mass__wing_fold_mass (wing_mass_scaler isolated_wing_mass strut_mass wing_fold_mass
    : ℝ)  :
    HasDerivAt (fun t => out_wing_mass wing_mass_scaler isolated_wing_mass strut_mass t) (J_wing_mass__wing_fold_mass wing_mass_scaler) wing_fold_mass := by
  simp only [out_wing_mass, J_wing_mass__wing_fold_mass, total_wing_wt]
  (apply hasDerivAt_of_eq; on_goal 1 => (repeat' comp_step))
  all_goals try comp_side
  all_goals try simp only [mul_zero, zero_mul, add_zero, zero_add, sub_zero, zero_sub, mul_one, one_mul]
  all_goals try push_cast
  all_goals comp_eq

/-- Every partial derivative set by `WingMassTotal` is the derivative of its output. -/
theorem partials (wing_mass_scaler isolated_wing_mass strut_mass wing_fold_mass : ℝ) :
    HasDerivAt (fun t => out_wing_mass t isolated_wing_mass strut_mass wing_fold_mass)
      (J_wing_mass__wing_mass_scaler isolated_wing_mass strut_mass wing_fold_mass)
      wing_mass_scaler ∧
    HasDerivAt (fun t => out_wing_mass wing_mass_scaler t strut_mass wing_fold_mass)
      (J_wing_mass__isolated_wing_mass wing_mass_scaler) isolated_wing_mass ∧
    HasDerivAt (fun t => out_wing_mass wing_mass_scaler isolated_wing_mass t wing_fold_mass)
      (J_wing_mass__strut_mass wing_mass_scaler) strut_mass ∧
    HasDerivAt (fun t => out_wing_mass wing_mass_scaler isolated_wing_mass strut_mass t)
      (J_wing_mass__wing_fold_mass wing_mass_scaler) wing_fold_mass :=
  ⟨d_wing_mass__wing_mass_scaler _ _ _ _, d_wing_mass__isolated_wing_mass _ _ _ _,
    d_wing_mass__strut_mass _ _ _ _, d_wing_mass__wing_fold_mass _ _ _ _⟩

end Verif.Comp.MassGaspBasedWing.WingMassTotal

