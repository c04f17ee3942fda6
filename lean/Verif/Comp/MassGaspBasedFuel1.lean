import Verif.Lemmas.CompDeriv

/-! # Partial derivatives of the components of `aviary/subsystems/mass/gasp_based/fuel.py`

One node of a vector component is modelled over the real numbers.  Each option that selects a
branch is fixed, one namespace per choice.  `out_x` is the output `x`, `J_x__y` the entry that
`compute_partials` (or `declare_partials` with `val`) assigns, `d_x__y` the proof that the entry is
the derivative.  Inputs an output does not take as argument have no influence on it.

* `BWBFuselageMass`: entries that differ from the derivative: `fuselage_mass` by
  `design_gross_mass`, `fuselage_mass` by `fuselage_aftbody_mass_per_unit_area`, `fuselage_mass`
  by `fuselage_cabin_area`, `fuselage_mass` by `fuselage_mass_coefficient`, `fuselage_mass` by
  `fuselage_wetted_area`, `fuselage_mass` by `fuselage_wetted_area_ratio_aftbody_to_total`

* `FuelComponents_smooth`: not proved: `fuel_wing_volume_structural_max` by `design_gross_mass`,
  `fuel_wing_volume_structural_max` by `fuel_density`, `fuel_wing_volume_structural_max` by
  `fuel_wing_volume_geometric_max`, `fuel_wing_volume_structural_max` by `operating_mass`,
  `max_wingfuel_mass` by `design_gross_mass`, `max_wingfuel_mass` by `fuel_density`,
  `max_wingfuel_mass` by `fuel_wing_volume_geometric_max`, `max_wingfuel_mass` by `operating_mass` -/

set_option linter.all false

namespace Verif.Comp.MassGaspBasedFuel.BWBFuselageMass
open Real

/-- aviary/subsystems/mass/gasp_based/fuel.py:1185 -/
noncomputable def fus_wt_fb (fuselage_mass_coefficient design_gross_mass fuselage_cabin_area : ℝ) : ℝ :=
  ((fuselage_mass_coefficient * (9 / 5)) * (design_gross_mass ^ ((167 / 1000) : ℝ))) *
    (fuselage_cabin_area ^ ((53 / 50) : ℝ))

/-- aviary/subsystems/mass/gasp_based/fuel.py:1186 -/
noncomputable def fus_wt_ab (fuselage_mass_coefficient fuselage_wetted_area_ratio_aftbody_to_total fuselage_aftbody_mass_per_unit_area fuselage_wetted_area : ℝ) : ℝ :=
  ((fuselage_mass_coefficient * fuselage_wetted_area) *
    fuselage_wetted_area_ratio_aftbody_to_total) * fuselage_aftbody_mass_per_unit_area

/-- aviary/subsystems/mass/gasp_based/fuel.py:1187 -/
noncomputable def fus_wt (fuselage_mass_coefficient design_gross_mass fuselage_cabin_area fuselage_wetted_area_ratio_aftbody_to_total fuselage_aftbody_mass_per_unit_area fuselage_wetted_area : ℝ) : ℝ :=
  (fus_wt_fb fuselage_mass_coefficient design_gross_mass fuselage_cabin_area) + (fus_wt_ab
    fuselage_mass_coefficient fuselage_wetted_area_ratio_aftbody_to_total
    fuselage_aftbody_mass_per_unit_area fuselage_wetted_area)

/-- aviary/subsystems/mass/gasp_based/fuel.py:1199 -/
noncomputable def dfuswt_dc_fuselage (design_gross_mass fuselage_cabin_area fuselage_wetted_area_ratio_aftbody_to_total fuselage_aftbody_mass_per_unit_area fuselage_wetted_area : ℝ) : ℝ :=
  (((9 / 5) * (design_gross_mass ^ ((167 / 1000) : ℝ))) * (fuselage_cabin_area ^ ((53 / 50) :
    ℝ))) + ((fuselage_wetted_area * fuselage_wetted_area_ratio_aftbody_to_total) *
    fuselage_aftbody_mass_per_unit_area)

/-- aviary/subsystems/mass/gasp_based/fuel.py:1203 -/
noncomputable def dfuswt_dgross_wt_initial (fuselage_mass_coefficient design_gross_mass fuselage_cabin_area : ℝ) : ℝ :=
  ((((167 / 1000) * fuselage_mass_coefficient) * (9 / 5)) * (design_gross_mass ^ ((-(833 /
    1000)) : ℝ))) * (fuselage_cabin_area ^ ((53 / 50) : ℝ))

/-- aviary/subsystems/mass/gasp_based/fuel.py:1206 -/
noncomputable def dfuswt_darea_cabin (fuselage_mass_coefficient design_gross_mass fuselage_cabin_area : ℝ) : ℝ :=
  ((((53 / 50) * fuselage_mass_coefficient) * (9 / 5)) * (design_gross_mass ^ ((167 / 1000) :
    ℝ))) * (fuselage_cabin_area ^ ((3 / 50) : ℝ))

/-- aviary/subsystems/mass/gasp_based/fuel.py:1209 -/
noncomputable def dfuswt_darea_aft_to_total (fuselage_mass_coefficient fuselage_aftbody_mass_per_unit_area fuselage_wetted_area : ℝ) : ℝ :=
  (fuselage_mass_coefficient * fuselage_wetted_area) * fuselage_aftbody_mass_per_unit_area

/-- aviary/subsystems/mass/gasp_based/fuel.py:1210 -/
noncomputable def dfuswt_duwt_aft (fuselage_mass_coefficient fuselage_wetted_area_ratio_aftbody_to_total fuselage_wetted_area : ℝ) : ℝ :=
  (fuselage_mass_coefficient * fuselage_wetted_area) *
    fuselage_wetted_area_ratio_aftbody_to_total

/-- aviary/subsystems/mass/gasp_based/fuel.py:1211 -/
noncomputable def dfuswt_dfus_sa (fuselage_mass_coefficient fuselage_wetted_area_ratio_aftbody_to_total fuselage_aftbody_mass_per_unit_area : ℝ) : ℝ :=
  (fuselage_mass_coefficient * fuselage_wetted_area_ratio_aftbody_to_total) *
    fuselage_aftbody_mass_per_unit_area

/-- Output `fuselage_mass` of `BWBFuselageMass.compute`, aviary/subsystems/mass/gasp_based/fuel.py:1189 -/
noncomputable def out_fuselage_mass (fuselage_mass_coefficient design_gross_mass fuselage_cabin_area fuselage_wetted_area_ratio_aftbody_to_total fuselage_aftbody_mass_per_unit_area fuselage_wetted_area fuselage_mass_scaler : ℝ) : ℝ :=
  fuselage_mass_scaler * (fus_wt fuselage_mass_coefficient design_gross_mass fuselage_cabin_area
    fuselage_wetted_area_ratio_aftbody_to_total fuselage_aftbody_mass_per_unit_area
    fuselage_wetted_area)

/-- Partial of `fuselage_mass` with respect to `fuselage_mass_coefficient` as set by `BWBFuselageMass`, aviary/subsystems/mass/gasp_based/fuel.py:1213 -/
noncomputable def J_fuselage_mass__fuselage_mass_coefficient (design_gross_mass fuselage_cabin_area fuselage_wetted_area_ratio_aftbody_to_total fuselage_aftbody_mass_per_unit_area fuselage_wetted_area : ℝ) : ℝ :=
  dfuswt_dc_fuselage design_gross_mass fuselage_cabin_area
    fuselage_wetted_area_ratio_aftbody_to_total fuselage_aftbody_mass_per_unit_area
    fuselage_wetted_area

/-- Partial of `fuselage_mass` with respect to `design_gross_mass` as set by `BWBFuselageMass`, aviary/subsystems/mass/gasp_based/fuel.py:1214 -/
noncomputable def J_fuselage_mass__design_gross_mass (fuselage_mass_coefficient design_gross_mass fuselage_cabin_area : ℝ) : ℝ :=
  dfuswt_dgross_wt_initial fuselage_mass_coefficient design_gross_mass fuselage_cabin_area

/-- Partial of `fuselage_mass` with respect to `fuselage_cabin_area` as set by `BWBFuselageMass`, aviary/subsystems/mass/gasp_based/fuel.py:1215 -/
noncomputable def J_fuselage_mass__fuselage_cabin_area (fuselage_mass_coefficient design_gross_mass fuselage_cabin_area : ℝ) : ℝ :=
  dfuswt_darea_cabin fuselage_mass_coefficient design_gross_mass fuselage_cabin_area

/-- Partial of `fuselage_mass` with respect to `fuselage_wetted_area_ratio_aftbody_to_total` as set by `BWBFuselageMass`, aviary/subsystems/mass/gasp_based/fuel.py:1216 -/
noncomputable def J_fuselage_mass__fuselage_wetted_area_ratio_aftbody_to_total (fuselage_mass_coefficient fuselage_aftbody_mass_per_unit_area fuselage_wetted_area : ℝ) : ℝ :=
  dfuswt_darea_aft_to_total fuselage_mass_coefficient fuselage_aftbody_mass_per_unit_area
    fuselage_wetted_area

/-- Partial of `fuselage_mass` with respect to `fuselage_aftbody_mass_per_unit_area` as set by `BWBFuselageMass`, aviary/subsystems/mass/gasp_based/fuel.py:1219 -/
noncomputable def J_fuselage_mass__fuselage_aftbody_mass_per_unit_area (fuselage_mass_coefficient fuselage_wetted_area_ratio_aftbody_to_total fuselage_wetted_area : ℝ) : ℝ :=
  dfuswt_duwt_aft fuselage_mass_coefficient fuselage_wetted_area_ratio_aftbody_to_total
    fuselage_wetted_area

/-- Partial of `fuselage_mass` with respect to `fuselage_wetted_area` as set by `BWBFuselageMass`, aviary/subsystems/mass/gasp_based/fuel.py:1220 -/
noncomputable def J_fuselage_mass__fuselage_wetted_area (fuselage_mass_coefficient fuselage_wetted_area_ratio_aftbody_to_total fuselage_aftbody_mass_per_unit_area : ℝ) : ℝ :=
  dfuswt_dfus_sa fuselage_mass_coefficient fuselage_wetted_area_ratio_aftbody_to_total
    fuselage_aftbody_mass_per_unit_area

/-- Partial of `fuselage_mass` with respect to `fuselage_mass_scaler` as set by `BWBFuselageMass`, aviary/subsystems/mass/gasp_based/fuel.py:1221 -/
noncomputable def J_fuselage_mass__fuselage_mass_scaler (fuselage_mass_coefficient design_gross_mass fuselage_cabin_area fuselage_wetted_area_ratio_aftbody_to_total fuselage_aftbody_mass_per_unit_area fuselage_wetted_area : ℝ) : ℝ :=
  (((fuselage_mass_coefficient * (9 / 5)) * (design_gross_mass ^ ((167 / 1000) : ℝ))) *
    (fuselage_cabin_area ^ ((53 / 50) : ℝ))) + (((fuselage_mass_coefficient *
    fuselage_wetted_area) * fuselage_wetted_area_ratio_aftbody_to_total) *
    fuselage_aftbody_mass_per_unit_area)

theorem d_fuselage_mass__fuselage_mass_scaler (fuselage_mass_coefficient design_gross_mass
    fuselage_cabin_area fuselage_wetted_area_ratio_aftbody_to_total
    fuselage_aftbody_mass_per_unit_area fuselage_wetted_area fuselage_mass_scaler : ℝ) (h0 : 0 <
    design_gross_mass) (h1 : 0 < fuselage_cabin_area) :
    HasDerivAt (fun t => out_fuselage_mass fuselage_mass_coefficient design_gross_mass fuselage_cabin_area fuselage_wetted_area_ratio_aftbody_to_total fuselage_aftbody_mass_per_unit_area fuselage_wetted_area t) (J_fuselage_mass__fuselage_mass_scaler fuselage_mass_coefficient design_gross_mass fuselage_cabin_area fuselage_wetted_area_ratio_aftbody_to_total fuselage_aftbody_mass_per_unit_area fuselage_wetted_area) fuselage_mass_scaler := by
  have e0 : ∀ x : ℝ, 0 < x → x ^ ((53 / 50) : ℝ) = x ^ ((3 / 50) : ℝ) * x ^ 1 := fun x hx => rpow_up hx 1 (by norm_num)
  simp only [out_fuselage_mass, J_fuselage_mass__fuselage_mass_scaler, fus_wt, fus_wt_ab, fus_wt_fb]
  (apply hasDerivAt_of_eq; on_goal 1 => (repeat' comp_step))
  all_goals try comp_side
  all_goals try simp (disch := first | assumption | positivity) only [e0]
  all_goals try simp only [mul_zero, zero_mul, add_zero, zero_add, sub_zero, zero_sub, mul_one, one_mul]
  all_goals try push_cast
  all_goals comp_eq

/-- Partial derivatives of `BWBFuselageMass` that are proved correct (the rest is listed in the header). -/
theorem partials_partial (fuselage_mass_coefficient design_gross_mass fuselage_cabin_area
    fuselage_wetted_area_ratio_aftbody_to_total fuselage_aftbody_mass_per_unit_area
    fuselage_wetted_area fuselage_mass_scaler : ℝ) (h0 : 0 < design_gross_mass) (h1 : 0 <
    fuselage_cabin_area) :
    HasDerivAt (fun t => out_fuselage_mass fuselage_mass_coefficient design_gross_mass
      fuselage_cabin_area fuselage_wetted_area_ratio_aftbody_to_total
      fuselage_aftbody_mass_per_unit_area fuselage_wetted_area t)
      (J_fuselage_mass__fuselage_mass_scaler fuselage_mass_coefficient design_gross_mass
      fuselage_cabin_area fuselage_wetted_area_ratio_aftbody_to_total
      fuselage_aftbody_mass_per_unit_area fuselage_wetted_area) fuselage_mass_scaler :=
  d_fuselage_mass__fuselage_mass_scaler _ _ _ _ _ _ _ h0 h1

example : ∃ fuselage_mass_coefficient design_gross_mass fuselage_cabin_area
      fuselage_wetted_area_ratio_aftbody_to_total fuselage_aftbody_mass_per_unit_area
      fuselage_wetted_area fuselage_mass_scaler : ℝ,
      0 < design_gross_mass ∧
      0 < fuselage_cabin_area :=
  ⟨0, 1, 1, 0, 0, 0, 0, by comp_example, by comp_example⟩

/-- The entry for `fuselage_mass` by `design_gross_mass` leaves out the factor `fuselage_mass_scaler`: where it is not zero it cannot be the
derivative both for `fuselage_mass_scaler = 1` and for `fuselage_mass_scaler = 2`. -/
theorem J_fuselage_mass__design_gross_mass_violated (fuselage_mass_coefficient design_gross_mass
    fuselage_cabin_area fuselage_wetted_area_ratio_aftbody_to_total
    fuselage_aftbody_mass_per_unit_area fuselage_wetted_area : ℝ) (hJ :
    J_fuselage_mass__design_gross_mass fuselage_mass_coefficient design_gross_mass
    fuselage_cabin_area ≠ 0) :
    ¬ (HasDerivAt (fun t => out_fuselage_mass fuselage_mass_coefficient t fuselage_cabin_area
      fuselage_wetted_area_ratio_aftbody_to_total fuselage_aftbody_mass_per_unit_area
      fuselage_wetted_area 1) (J_fuselage_mass__design_gross_mass fuselage_mass_coefficient
      design_gross_mass fuselage_cabin_area) design_gross_mass ∧ HasDerivAt (fun t =>
      out_fuselage_mass fuselage_mass_coefficient t fuselage_cabin_area
      fuselage_wetted_area_ratio_aftbody_to_total fuselage_aftbody_mass_per_unit_area
      fuselage_wetted_area 2) (J_fuselage_mass__design_gross_mass fuselage_mass_coefficient
      design_gross_mass fuselage_cabin_area) design_gross_mass) := by
  rintro ⟨h1, h2⟩
  have e : (fun t => out_fuselage_mass fuselage_mass_coefficient t fuselage_cabin_area
      fuselage_wetted_area_ratio_aftbody_to_total fuselage_aftbody_mass_per_unit_area
      fuselage_wetted_area 2) = fun t => 2 * out_fuselage_mass fuselage_mass_coefficient t
      fuselage_cabin_area fuselage_wetted_area_ratio_aftbody_to_total
      fuselage_aftbody_mass_per_unit_area fuselage_wetted_area 1 := by
    funext t; simp only [out_fuselage_mass, fus_wt, fus_wt_ab, fus_wt_fb]; ring
  rw [e] at h2
  have := h2.unique (h1.const_mul 2)
  exact hJ (by linarith)

example : J_fuselage_mass__design_gross_mass (1) (1) (1) ≠ 0 := by
  simp only [J_fuselage_mass__design_gross_mass, dfuswt_dgross_wt_initial]
  first | positivity | (norm_num; done) | (norm_num; positivity)

/-- The entry for `fuselage_mass` by `fuselage_aftbody_mass_per_unit_area` leaves out the factor `fuselage_mass_scaler`: where it is not zero it cannot be the
derivative both for `fuselage_mass_scaler = 1` and for `fuselage_mass_scaler = 2`. -/
theorem J_fuselage_mass__fuselage_aftbody_mass_per_unit_area_violated (fuselage_mass_coefficient
    design_gross_mass fuselage_cabin_area fuselage_wetted_area_ratio_aftbody_to_total
    fuselage_aftbody_mass_per_unit_area fuselage_wetted_area : ℝ) (hJ :
    J_fuselage_mass__fuselage_aftbody_mass_per_unit_area fuselage_mass_coefficient
    fuselage_wetted_area_ratio_aftbody_to_total fuselage_wetted_area ≠ 0) :
    ¬ (HasDerivAt (fun t => out_fuselage_mass fuselage_mass_coefficient design_gross_mass
      fuselage_cabin_area fuselage_wetted_area_ratio_aftbody_to_total t fuselage_wetted_area 1)
      (J_fuselage_mass__fuselage_aftbody_mass_per_unit_area fuselage_mass_coefficient
      fuselage_wetted_area_ratio_aftbody_to_total fuselage_wetted_area)
      fuselage_aftbody_mass_per_unit_area ∧ HasDerivAt (fun t => out_fuselage_mass
      fuselage_mass_coefficient design_gross_mass fuselage_cabin_area
      fuselage_wetted_area_ratio_aftbody_to_total t fuselage_wetted_area 2)
      (J_fuselage_mass__fuselage_aftbody_mass_per_unit_area fuselage_mass_coefficient
      fuselage_wetted_area_ratio_aftbody_to_total fuselage_wetted_area)
      fuselage_aftbody_mass_per_unit_area) := by
  rintro ⟨h1, h2⟩
  have e : (fun t => out_fuselage_mass fuselage_mass_coefficient design_gross_mass
      fuselage_cabin_area fuselage_wetted_area_ratio_aftbody_to_total t fuselage_wetted_area 2) =
      fun t => 2 * out_fuselage_mass fuselage_mass_coefficient design_gross_mass
      fuselage_cabin_area fuselage_wetted_area_ratio_aftbody_to_total t fuselage_wetted_area 1 :=
      by
    funext t; simp only [out_fuselage_mass, fus_wt, fus_wt_ab, fus_wt_fb]; ring
  rw [e] at h2
  have := h2.unique (h1.const_mul 2)
  exact hJ (by linarith)

example : J_fuselage_mass__fuselage_aftbody_mass_per_unit_area (1) (1) (1) ≠ 0 := by
  simp only [J_fuselage_mass__fuselage_aftbody_mass_per_unit_area, dfuswt_duwt_aft]
  first | positivity | (norm_num; done) | (norm_num; positivity)

/-- The entry for `fuselage_mass` by `fuselage_cabin_area` leaves out the factor `fuselage_mass_scaler`: where it is not zero it cannot be the
derivative both for `fuselage_mass_scaler = 1` and for `fuselage_mass_scaler = 2`. -/
theorem J_fuselage_mass__fuselage_cabin_area_violated (fuselage_mass_coefficient design_gross_mass
    fuselage_cabin_area fuselage_wetted_area_ratio_aftbody_to_total
    fuselage_aftbody_mass_per_unit_area fuselage_wetted_area : ℝ) (hJ :
    J_fuselage_mass__fuselage_cabin_area fuselage_mass_coefficient design_gross_mass
    fuselage_cabin_area ≠ 0) :
    ¬ (HasDerivAt (fun t => out_fuselage_mass fuselage_mass_coefficient design_gross_mass t
      fuselage_wetted_area_ratio_aftbody_to_total fuselage_aftbody_mass_per_unit_area
      fuselage_wetted_area 1) (J_fuselage_mass__fuselage_cabin_area fuselage_mass_coefficient
      design_gross_mass fuselage_cabin_area) fuselage_cabin_area ∧ HasDerivAt (fun t =>
      out_fuselage_mass fuselage_mass_coefficient design_gross_mass t
      fuselage_wetted_area_ratio_aftbody_to_total fuselage_aftbody_mass_per_unit_area
      fuselage_wetted_area 2) (J_fuselage_mass__fuselage_cabin_area fuselage_mass_coefficient
      design_gross_mass fuselage_cabin_area) fuselage_cabin_area) := by
  rintro ⟨h1, h2⟩
  have e : (fun t => out_fuselage_mass fuselage_mass_coefficient design_gross_mass t
      fuselage_wetted_area_ratio_aftbody_to_total fuselage_aftbody_mass_per_unit_area
      fuselage_wetted_area 2) = fun t => 2 * out_fuselage_mass fuselage_mass_coefficient
      design_gross_mass t fuselage_wetted_area_ratio_aftbody_to_total
      fuselage_aftbody_mass_per_unit_area fuselage_wetted_area 1 := by
    funext t; simp only [out_fuselage_mass, fus_wt, fus_wt_ab, fus_wt_fb]; ring
  rw [e] at h2
  have := h2.unique (h1.const_mul 2)
  exact hJ (by linarith)

example : J_fuselage_mass__fuselage_cabin_area (1) (1) (1) ≠ 0 := by
  simp only [J_fuselage_mass__fuselage_cabin_area, dfuswt_darea_cabin]
  first | positivity | (norm_num; done) | (norm_num; positivity)

/-- The entry for `fuselage_mass` by `fuselage_mass_coefficient` leaves out the factor `fuselage_mass_scaler`: where it is not zero it cannot be the
derivative both for `fuselage_mass_scaler = 1` and for `fuselage_mass_scaler = 2`. -/
theorem J_fuselage_mass__fuselage_mass_coefficient_violated (fuselage_mass_coefficient
    design_gross_mass fuselage_cabin_area fuselage_wetted_area_ratio_aftbody_to_total
    fuselage_aftbody_mass_per_unit_area fuselage_wetted_area : ℝ) (hJ :
    J_fuselage_mass__fuselage_mass_coefficient design_gross_mass fuselage_cabin_area
    fuselage_wetted_area_ratio_aftbody_to_total fuselage_aftbody_mass_per_unit_area
    fuselage_wetted_area ≠ 0) :
    ¬ (HasDerivAt (fun t => out_fuselage_mass t design_gross_mass fuselage_cabin_area
      fuselage_wetted_area_ratio_aftbody_to_total fuselage_aftbody_mass_per_unit_area
      fuselage_wetted_area 1) (J_fuselage_mass__fuselage_mass_coefficient design_gross_mass
      fuselage_cabin_area fuselage_wetted_area_ratio_aftbody_to_total
      fuselage_aftbody_mass_per_unit_area fuselage_wetted_area) fuselage_mass_coefficient ∧
      HasDerivAt (fun t => out_fuselage_mass t design_gross_mass fuselage_cabin_area
      fuselage_wetted_area_ratio_aftbody_to_total fuselage_aftbody_mass_per_unit_area
      fuselage_wetted_area 2) (J_fuselage_mass__fuselage_mass_coefficient design_gross_mass
      fuselage_cabin_area fuselage_wetted_area_ratio_aftbody_to_total
      fuselage_aftbody_mass_per_unit_area fuselage_wetted_area) fuselage_mass_coefficient) := by
  rintro ⟨h1, h2⟩
  have e : (fun t => out_fuselage_mass t design_gross_mass fuselage_cabin_area
      fuselage_wetted_area_ratio_aftbody_to_total fuselage_aftbody_mass_per_unit_area
      fuselage_wetted_area 2) = fun t => 2 * out_fuselage_mass t design_gross_mass
      fuselage_cabin_area fuselage_wetted_area_ratio_aftbody_to_total
      fuselage_aftbody_mass_per_unit_area fuselage_wetted_area 1 := by
    funext t; simp only [out_fuselage_mass, fus_wt, fus_wt_ab, fus_wt_fb]; ring
  rw [e] at h2
  have := h2.unique (h1.const_mul 2)
  exact hJ (by linarith)

example : J_fuselage_mass__fuselage_mass_coefficient (1) (1) (0) (0) (0) ≠ 0 := by
  simp only [J_fuselage_mass__fuselage_mass_coefficient, dfuswt_dc_fuselage]
  first | positivity | (norm_num; done) | (norm_num; positivity)

/-- The entry for `fuselage_mass` by `fuselage_wetted_area` leaves out the factor `fuselage_mass_scaler`: where it is not zero it cannot be the
derivative both for `fuselage_mass_scaler = 1` and for `fuselage_mass_scaler = 2`. -/
theorem J_fuselage_mass__fuselage_wetted_area_violated (fuselage_mass_coefficient
    design_gross_mass fuselage_cabin_area fuselage_wetted_area_ratio_aftbody_to_total
    fuselage_aftbody_mass_per_unit_area fuselage_wetted_area : ℝ) (hJ :
    J_fuselage_mass__fuselage_wetted_area fuselage_mass_coefficient
    fuselage_wetted_area_ratio_aftbody_to_total fuselage_aftbody_mass_per_unit_area ≠ 0) :
    ¬ (HasDerivAt (fun t => out_fuselage_mass fuselage_mass_coefficient design_gross_mass
      fuselage_cabin_area fuselage_wetted_area_ratio_aftbody_to_total
      fuselage_aftbody_mass_per_unit_area t 1) (J_fuselage_mass__fuselage_wetted_area
      fuselage_mass_coefficient fuselage_wetted_area_ratio_aftbody_to_total
      fuselage_aftbody_mass_per_unit_area) fuselage_wetted_area ∧ HasDerivAt (fun t =>
      out_fuselage_mass fuselage_mass_coefficient design_gross_mass fuselage_cabin_area
      fuselage_wetted_area_ratio_aftbody_to_total fuselage_aftbody_mass_per_unit_area t 2)
      (J_fuselage_mass__fuselage_wetted_area fuselage_mass_coefficient
      fuselage_wetted_area_ratio_aftbody_to_total fuselage_aftbody_mass_per_unit_area)
      fuselage_wetted_area) := by
  rintro ⟨h1, h2⟩
  have e : (fun t => out_fuselage_mass fuselage_mass_coefficient design_gross_mass
      fuselage_cabin_area fuselage_wetted_area_ratio_aftbody_to_total
      fuselage_aftbody_mass_per_unit_area t 2) = fun t => 2 * out_fuselage_mass
      fuselage_mass_coefficient design_gross_mass fuselage_cabin_area
      fuselage_wetted_area_ratio_aftbody_to_total fuselage_aftbody_mass_per_unit_area t 1 := by
    funext t; simp only [out_fuselage_mass, fus_wt, fus_wt_ab, fus_wt_fb]; ring
  rw [e] at h2
  have := h2.unique (h1.const_mul 2)
  exact hJ (by linarith)

example : J_fuselage_mass__fuselage_wetted_area (1) (1) (1) ≠ 0 := by
  simp only [J_fuselage_mass__fuselage_wetted_area, dfuswt_dfus_sa]
  first | positivity | (norm_num; done) | (norm_num; positivity)

/-- The entry for `fuselage_mass` by `fuselage_wetted_area_ratio_aftbody_to_total` leaves out the factor `fuselage_mass_scaler`: where it is not zero it cannot be the
derivative both for `fuselage_mass_scaler = 1` and for `fuselage_mass_scaler = 2`. -/
theorem J_fuselage_mass__fuselage_wetted_area_ratio_aftbody_to_total_violated
    (fuselage_mass_coefficient design_gross_mass fuselage_cabin_area
    fuselage_wetted_area_ratio_aftbody_to_total fuselage_aftbody_mass_per_unit_area
    fuselage_wetted_area : ℝ) (hJ : J_fuselage_mass__fuselage_wetted_area_ratio_aftbody_to_total
    fuselage_mass_coefficient fuselage_aftbody_mass_per_unit_area fuselage_wetted_area ≠ 0) :
    ¬ (HasDerivAt (fun t => out_fuselage_mass fuselage_mass_coefficient design_gross_mass
      fuselage_cabin_area t fuselage_aftbody_mass_per_unit_area fuselage_wetted_area 1)
      (J_fuselage_mass__fuselage_wetted_area_ratio_aftbody_to_total fuselage_mass_coefficient
      fuselage_aftbody_mass_per_unit_area fuselage_wetted_area)
      fuselage_wetted_area_ratio_aftbody_to_total ∧ HasDerivAt (fun t => out_fuselage_mass
      fuselage_mass_coefficient design_gross_mass fuselage_cabin_area t
      fuselage_aftbody_mass_per_unit_area fuselage_wetted_area 2)
      (J_fuselage_mass__fuselage_wetted_area_ratio_aftbody_to_total fuselage_mass_coefficient
      fuselage_aftbody_mass_per_unit_area fuselage_wetted_area)
      fuselage_wetted_area_ratio_aftbody_to_total) := by
  rintro ⟨h1, h2⟩
  have e : (fun t => out_fuselage_mass fuselage_mass_coefficient design_gross_mass
      fuselage_cabin_area t fuselage_aftbody_mass_per_unit_area fuselage_wetted_area 2) = fun t =>
      2 * out_fuselage_mass fuselage_mass_coefficient design_gross_mass fuselage_cabin_area t
      fuselage_aftbody_mass_per_unit_area fuselage_wetted_area 1 := by
    funext t; simp only [out_fuselage_mass, fus_wt, fus_wt_ab, fus_wt_fb]; ring
  rw [e] at h2
  have := h2.unique (h1.const_mul 2)
  exact hJ (by linarith)

example : J_fuselage_mass__fuselage_wetted_area_ratio_aftbody_to_total (1) (1) (1) ≠ 0 := by
  simp only [J_fuselage_mass__fuselage_wetted_area_ratio_aftbody_to_total,
      dfuswt_darea_aft_to_total]
  first | positivity | (norm_num; done) | (norm_num; positivity)

end Verif.Comp.MassGaspBasedFuel.BWBFuselageMass

namespace Verif.Comp.MassGaspBasedFuel.FuelComponents_smooth
open Real

/-- aviary/subsystems/mass/gasp_based/fuel.py:597 -/
noncomputable def max_fuel_avail (fuel_max_capacity_mass fuel_unusable_fuel_mass : ℝ) : ℝ :=
  fuel_max_capacity_mass - fuel_unusable_fuel_mass

/-- aviary/subsystems/mass/gasp_based/fuel.py:599 -/
noncomputable def oem_wingfuel_wt (design_gross_mass operating_mass : ℝ) : ℝ :=
  design_gross_mass - operating_mass

/-- aviary/subsystems/mass/gasp_based/fuel.py:601 -/
noncomputable def oem_fuel_vol (fuel_density design_gross_mass operating_mass : ℝ) : ℝ :=
  (oem_wingfuel_wt design_gross_mass operating_mass) / fuel_density

/-- aviary/subsystems/mass/gasp_based/fuel.py:602 -/
noncomputable def design_fuel_vol (fuel_density fuel_mass_required fuel_volume_margin : ℝ) : ℝ :=
  ((1 + (fuel_volume_margin / 100)) * fuel_mass_required) / fuel_density

/-- aviary/subsystems/mass/gasp_based/fuel.py:604 -/
noncomputable def volume_wingfuel_wt (fuel_density fuel_wing_volume_geometric_max : ℝ) : ℝ :=
  fuel_wing_volume_geometric_max * fuel_density

/-- aviary/subsystems/mass/gasp_based/fuel.py:606 -/
noncomputable def max_wingfuel_wt (fuel_density design_gross_mass fuel_wing_volume_geometric_max operating_mass : ℝ) : ℝ :=
  ((oem_wingfuel_wt design_gross_mass operating_mass) * (sigX ((volume_wingfuel_wt fuel_density
    fuel_wing_volume_geometric_max) - (oem_wingfuel_wt design_gross_mass operating_mass)) 0 (1 /
    95))) + ((volume_wingfuel_wt fuel_density fuel_wing_volume_geometric_max) * (sigX
    ((oem_wingfuel_wt design_gross_mass operating_mass) - (volume_wingfuel_wt fuel_density
    fuel_wing_volume_geometric_max)) 0 (1 / 95)))

/-- aviary/subsystems/mass/gasp_based/fuel.py:614 -/
noncomputable def payload_wt_max_fuel (design_gross_mass operating_mass fuel_max_capacity_mass fuel_unusable_fuel_mass : ℝ) : ℝ :=
  (design_gross_mass - operating_mass) - (max_fuel_avail fuel_max_capacity_mass
    fuel_unusable_fuel_mass)

/-- aviary/subsystems/mass/gasp_based/fuel.py:615 -/
noncomputable def max_wingfuel_vol (fuel_density design_gross_mass fuel_wing_volume_geometric_max operating_mass : ℝ) : ℝ :=
  (max_wingfuel_wt fuel_density design_gross_mass fuel_wing_volume_geometric_max operating_mass)
    / fuel_density

/-- aviary/subsystems/mass/gasp_based/fuel.py:670 -/
noncomputable def dmaxwfwt_dgtow (fuel_density design_gross_mass fuel_wing_volume_geometric_max operating_mass : ℝ) : ℝ :=
  (((oem_wingfuel_wt design_gross_mass operating_mass) * (dsigX ((volume_wingfuel_wt
    fuel_density fuel_wing_volume_geometric_max) - (oem_wingfuel_wt design_gross_mass
    operating_mass)) 0 (1 / 95))) + (sigX ((volume_wingfuel_wt fuel_density
    fuel_wing_volume_geometric_max) - (oem_wingfuel_wt design_gross_mass operating_mass)) 0 (1 /
    95))) + ((volume_wingfuel_wt fuel_density fuel_wing_volume_geometric_max) * (dsigX
    ((oem_wingfuel_wt design_gross_mass operating_mass) - (volume_wingfuel_wt fuel_density
    fuel_wing_volume_geometric_max)) 0 (1 / 95)))

/-- aviary/subsystems/mass/gasp_based/fuel.py:679 -/
noncomputable def dmaxwfwt_doew (fuel_density design_gross_mass fuel_wing_volume_geometric_max operating_mass : ℝ) : ℝ :=
  ((((oem_wingfuel_wt design_gross_mass operating_mass) * (dsigX ((volume_wingfuel_wt
    fuel_density fuel_wing_volume_geometric_max) - (oem_wingfuel_wt design_gross_mass
    operating_mass)) 0 (1 / 95))) * (-1)) + ((-1) * (sigX ((volume_wingfuel_wt fuel_density
    fuel_wing_volume_geometric_max) - (oem_wingfuel_wt design_gross_mass operating_mass)) 0 (1 /
    95)))) + (((volume_wingfuel_wt fuel_density fuel_wing_volume_geometric_max) * (dsigX
    ((oem_wingfuel_wt design_gross_mass operating_mass) - (volume_wingfuel_wt fuel_density
    fuel_wing_volume_geometric_max)) 0 (1 / 95))) * (-1))

/-- aviary/subsystems/mass/gasp_based/fuel.py:688 -/
noncomputable def dmaxwfwt_dgeomfuelvol (fuel_density design_gross_mass fuel_wing_volume_geometric_max operating_mass : ℝ) : ℝ :=
  ((((oem_wingfuel_wt design_gross_mass operating_mass) * (dsigX ((volume_wingfuel_wt
    fuel_density fuel_wing_volume_geometric_max) - (oem_wingfuel_wt design_gross_mass
    operating_mass)) 0 (1 / 95))) * fuel_density) + (((volume_wingfuel_wt fuel_density
    fuel_wing_volume_geometric_max) * (dsigX ((oem_wingfuel_wt design_gross_mass operating_mass)
    - (volume_wingfuel_wt fuel_density fuel_wing_volume_geometric_max)) 0 (1 / 95))) *
    fuel_density)) + (fuel_density * (sigX ((oem_wingfuel_wt design_gross_mass operating_mass) -
    (volume_wingfuel_wt fuel_density fuel_wing_volume_geometric_max)) 0 (1 / 95)))

/-- aviary/subsystems/mass/gasp_based/fuel.py:697 -/
noncomputable def dmaxwfwt_drhofuel (fuel_density design_gross_mass fuel_wing_volume_geometric_max operating_mass : ℝ) : ℝ :=
  ((((oem_wingfuel_wt design_gross_mass operating_mass) * (dsigX ((volume_wingfuel_wt
    fuel_density fuel_wing_volume_geometric_max) - (oem_wingfuel_wt design_gross_mass
    operating_mass)) 0 (1 / 95))) * fuel_wing_volume_geometric_max) + (((volume_wingfuel_wt
    fuel_density fuel_wing_volume_geometric_max) * (dsigX ((oem_wingfuel_wt design_gross_mass
    operating_mass) - (volume_wingfuel_wt fuel_density fuel_wing_volume_geometric_max)) 0 (1 /
    95))) * fuel_wing_volume_geometric_max)) + (fuel_wing_volume_geometric_max * (sigX
    ((oem_wingfuel_wt design_gross_mass operating_mass) - (volume_wingfuel_wt fuel_density
    fuel_wing_volume_geometric_max)) 0 (1 / 95)))

/-- Output `oem_wingfuel_mass` of `FuelComponents.compute`, aviary/subsystems/mass/gasp_based/fuel.py:617 -/
noncomputable def out_oem_wingfuel_mass (design_gross_mass operating_mass : ℝ) : ℝ :=
  oem_wingfuel_wt design_gross_mass operating_mass

/-- Output `oem_fuel_vol` of `FuelComponents.compute`, aviary/subsystems/mass/gasp_based/fuel.py:618 -/
noncomputable def out_oem_fuel_vol (fuel_density design_gross_mass operating_mass : ℝ) : ℝ :=
  oem_fuel_vol fuel_density design_gross_mass operating_mass

/-- Output `fuel_wing_volume_design` of `FuelComponents.compute`, aviary/subsystems/mass/gasp_based/fuel.py:619 -/
noncomputable def out_fuel_wing_volume_design (fuel_density fuel_mass_required fuel_volume_margin : ℝ) : ℝ :=
  design_fuel_vol fuel_density fuel_mass_required fuel_volume_margin

/-- Output `payload_mass_max_fuel` of `FuelComponents.compute`, aviary/subsystems/mass/gasp_based/fuel.py:620 -/
noncomputable def out_payload_mass_max_fuel (design_gross_mass operating_mass fuel_max_capacity_mass fuel_unusable_fuel_mass : ℝ) : ℝ :=
  payload_wt_max_fuel design_gross_mass operating_mass fuel_max_capacity_mass
    fuel_unusable_fuel_mass

/-- Output `volume_wingfuel_mass` of `FuelComponents.compute`, aviary/subsystems/mass/gasp_based/fuel.py:621 -/
noncomputable def out_volume_wingfuel_mass (fuel_density fuel_wing_volume_geometric_max : ℝ) : ℝ :=
  volume_wingfuel_wt fuel_density fuel_wing_volume_geometric_max

/-- Output `max_wingfuel_mass` of `FuelComponents.compute`, aviary/subsystems/mass/gasp_based/fuel.py:622 -/
noncomputable def out_max_wingfuel_mass (fuel_density design_gross_mass fuel_wing_volume_geometric_max operating_mass : ℝ) : ℝ :=
  max_wingfuel_wt fuel_density design_gross_mass fuel_wing_volume_geometric_max operating_mass

/-- Output `fuel_wing_volume_structural_max` of `FuelComponents.compute`, aviary/subsystems/mass/gasp_based/fuel.py:623 -/
noncomputable def out_fuel_wing_volume_structural_max (fuel_density design_gross_mass fuel_wing_volume_geometric_max operating_mass : ℝ) : ℝ :=
  max_wingfuel_vol fuel_density design_gross_mass fuel_wing_volume_geometric_max operating_mass

/-- Partial of `payload_mass_max_fuel` with respect to `design_gross_mass` as set by `FuelComponents`, aviary/subsystems/mass/gasp_based/fuel.py:552 -/
noncomputable def J_payload_mass_max_fuel__design_gross_mass : ℝ := 1

/-- Partial of `payload_mass_max_fuel` with respect to `fuel_max_capacity_mass` as set by `FuelComponents`, aviary/subsystems/mass/gasp_based/fuel.py:553 -/
noncomputable def J_payload_mass_max_fuel__fuel_max_capacity_mass : ℝ := -1

/-- Partial of `payload_mass_max_fuel` with respect to `operating_mass` as set by `FuelComponents`, aviary/subsystems/mass/gasp_based/fuel.py:553 -/
noncomputable def J_payload_mass_max_fuel__operating_mass : ℝ := -1

/-- Partial of `payload_mass_max_fuel` with respect to `fuel_unusable_fuel_mass` as set by `FuelComponents`, aviary/subsystems/mass/gasp_based/fuel.py:561 -/
noncomputable def J_payload_mass_max_fuel__fuel_unusable_fuel_mass : ℝ := 1

/-- Partial of `oem_wingfuel_mass` with respect to `design_gross_mass` as set by `FuelComponents`, aviary/subsystems/mass/gasp_based/fuel.py:647 -/
noncomputable def J_oem_wingfuel_mass__design_gross_mass : ℝ := 1

/-- Partial of `oem_wingfuel_mass` with respect to `operating_mass` as set by `FuelComponents`, aviary/subsystems/mass/gasp_based/fuel.py:648 -/
noncomputable def J_oem_wingfuel_mass__operating_mass : ℝ := -1

/-- Partial of `oem_fuel_vol` with respect to `design_gross_mass` as set by `FuelComponents`, aviary/subsystems/mass/gasp_based/fuel.py:650 -/
noncomputable def J_oem_fuel_vol__design_gross_mass (fuel_density : ℝ) : ℝ := 1 / fuel_density

/-- Partial of `oem_fuel_vol` with respect to `operating_mass` as set by `FuelComponents`, aviary/subsystems/mass/gasp_based/fuel.py:651 -/
noncomputable def J_oem_fuel_vol__operating_mass (fuel_density : ℝ) : ℝ := (-1) / fuel_density

/-- Partial of `oem_fuel_vol` with respect to `fuel_density` as set by `FuelComponents`, aviary/subsystems/mass/gasp_based/fuel.py:652 -/
noncomputable def J_oem_fuel_vol__fuel_density (fuel_density design_gross_mass operating_mass : ℝ) : ℝ :=
  (-(oem_wingfuel_wt design_gross_mass operating_mass)) / (fuel_density ^ 2)

/-- Partial of `fuel_wing_volume_design` with respect to `fuel_mass_required` as set by `FuelComponents`, aviary/subsystems/mass/gasp_based/fuel.py:654 -/
noncomputable def J_fuel_wing_volume_design__fuel_mass_required (fuel_density fuel_volume_margin : ℝ) : ℝ :=
  (1 + (fuel_volume_margin / 100)) / fuel_density

/-- Partial of `fuel_wing_volume_design` with respect to `fuel_density` as set by `FuelComponents`, aviary/subsystems/mass/gasp_based/fuel.py:657 -/
noncomputable def J_fuel_wing_volume_design__fuel_density (fuel_density fuel_mass_required fuel_volume_margin : ℝ) : ℝ :=
  ((-(1 + (fuel_volume_margin / 100))) * fuel_mass_required) / (fuel_density ^ 2)

/-- Partial of `fuel_wing_volume_design` with respect to `fuel_volume_margin` as set by `FuelComponents`, aviary/subsystems/mass/gasp_based/fuel.py:660 -/
noncomputable def J_fuel_wing_volume_design__fuel_volume_margin (fuel_density fuel_mass_required : ℝ) : ℝ :=
  ((1 / 100) * fuel_mass_required) / fuel_density

/-- Partial of `volume_wingfuel_mass` with respect to `fuel_wing_volume_geometric_max` as set by `FuelComponents`, aviary/subsystems/mass/gasp_based/fuel.py:664 -/
noncomputable def J_volume_wingfuel_mass__fuel_wing_volume_geometric_max (fuel_density : ℝ) : ℝ :=
  fuel_density

/-- Partial of `volume_wingfuel_mass` with respect to `fuel_density` as set by `FuelComponents`, aviary/subsystems/mass/gasp_based/fuel.py:667 -/
noncomputable def J_volume_wingfuel_mass__fuel_density (fuel_wing_volume_geometric_max : ℝ) : ℝ :=
  fuel_wing_volume_geometric_max

/-- Partial of `max_wingfuel_mass` with respect to `design_gross_mass` as set by `FuelComponents`, aviary/subsystems/mass/gasp_based/fuel.py:707 -/
noncomputable def J_max_wingfuel_mass__design_gross_mass (fuel_density design_gross_mass fuel_wing_volume_geometric_max operating_mass : ℝ) : ℝ :=
  dmaxwfwt_dgtow fuel_density design_gross_mass fuel_wing_volume_geometric_max operating_mass

/-- Partial of `max_wingfuel_mass` with respect to `operating_mass` as set by `FuelComponents`, aviary/subsystems/mass/gasp_based/fuel.py:708 -/
noncomputable def J_max_wingfuel_mass__operating_mass (fuel_density design_gross_mass fuel_wing_volume_geometric_max operating_mass : ℝ) : ℝ :=
  dmaxwfwt_doew fuel_density design_gross_mass fuel_wing_volume_geometric_max operating_mass

/-- Partial of `max_wingfuel_mass` with respect to `fuel_wing_volume_geometric_max` as set by `FuelComponents`, aviary/subsystems/mass/gasp_based/fuel.py:709 -/
noncomputable def J_max_wingfuel_mass__fuel_wing_volume_geometric_max (fuel_density design_gross_mass fuel_wing_volume_geometric_max operating_mass : ℝ) : ℝ :=
  dmaxwfwt_dgeomfuelvol fuel_density design_gross_mass fuel_wing_volume_geometric_max
    operating_mass

/-- Partial of `max_wingfuel_mass` with respect to `fuel_density` as set by `FuelComponents`, aviary/subsystems/mass/gasp_based/fuel.py:712 -/
noncomputable def J_max_wingfuel_mass__fuel_density (fuel_density design_gross_mass fuel_wing_volume_geometric_max operating_mass : ℝ) : ℝ :=
  dmaxwfwt_drhofuel fuel_density design_gross_mass fuel_wing_volume_geometric_max operating_mass

/-- Partial of `fuel_wing_volume_structural_max` with respect to `design_gross_mass` as set by `FuelComponents`, aviary/subsystems/mass/gasp_based/fuel.py:734 -/
noncomputable def J_fuel_wing_volume_structural_max__design_gross_mass (fuel_density design_gross_mass fuel_wing_volume_geometric_max operating_mass : ℝ) : ℝ :=
  (dmaxwfwt_dgtow fuel_density design_gross_mass fuel_wing_volume_geometric_max operating_mass)
    / fuel_density

/-- Partial of `fuel_wing_volume_structural_max` with respect to `operating_mass` as set by `FuelComponents`, aviary/subsystems/mass/gasp_based/fuel.py:737 -/
noncomputable def J_fuel_wing_volume_structural_max__operating_mass (fuel_density design_gross_mass fuel_wing_volume_geometric_max operating_mass : ℝ) : ℝ :=
  (dmaxwfwt_doew fuel_density design_gross_mass fuel_wing_volume_geometric_max operating_mass) /
    fuel_density

/-- Partial of `fuel_wing_volume_structural_max` with respect to `fuel_wing_volume_geometric_max` as set by `FuelComponents`, aviary/subsystems/mass/gasp_based/fuel.py:740 -/
noncomputable def J_fuel_wing_volume_structural_max__fuel_wing_volume_geometric_max (fuel_density design_gross_mass fuel_wing_volume_geometric_max operating_mass : ℝ) : ℝ :=
  (dmaxwfwt_dgeomfuelvol fuel_density design_gross_mass fuel_wing_volume_geometric_max
    operating_mass) / fuel_density

/-- Partial of `fuel_wing_volume_structural_max` with respect to `fuel_density` as set by `FuelComponents`, aviary/subsystems/mass/gasp_based/fuel.py:743 -/
noncomputable def J_fuel_wing_volume_structural_max__fuel_density (fuel_density design_gross_mass fuel_wing_volume_geometric_max operating_mass : ℝ) : ℝ :=
  ((dmaxwfwt_drhofuel fuel_density design_gross_mass fuel_wing_volume_geometric_max
    operating_mass) / fuel_density) - ((max_wingfuel_wt fuel_density design_gross_mass
    fuel_wing_volume_geometric_max operating_mass) / (fuel_density ^ 2))

theorem d_oem_wingfuel_mass__design_gross_mass (design_gross_mass operating_mass : ℝ)  :
    HasDerivAt (fun t => out_oem_wingfuel_mass t operating_mass) (J_oem_wingfuel_mass__design_gross_mass) design_gross_mass := by
  simp only [out_oem_wingfuel_mass, J_oem_wingfuel_mass__design_gross_mass, oem_wingfuel_wt]
  (apply hasDerivAt_of_eq; on_goal 1 => (repeat' comp_step))
  all_goals try comp_side
  all_goals try simp only [mul_zero, zero_mul, add_zero, zero_add, sub_zero, zero_sub, mul_one, one_mul]
  all_goals try push_cast
  all_goals comp_eq

theorem d_oem_wingfuel_mass__operating_mass (design_gross_mass operating_mass : ℝ)  :
    HasDerivAt (fun t => out_oem_wingfuel_mass design_gross_mass t) (J_oem_wingfuel_mass__operating_mass) operating_mass := by
  simp only [out_oem_wingfuel_mass, J_oem_wingfuel_mass__operating_mass, oem_wingfuel_wt]
  (apply hasDerivAt_of_eq; on_goal 1 => (repeat' comp_step))
  all_goals try comp_side
  all_goals try simp only [mul_zero, zero_mul, add_zero, zero_add, sub_zero, zero_sub, mul_one, one_mul]
  all_goals try push_cast
  all_goals comp_eq

theorem d_oem_fuel_vol__fuel_density (fuel_density design_gross_mass operating_mass : ℝ) (h0 : 0 <
    fuel_density) :
    HasDerivAt (fun t => out_oem_fuel_vol t design_gross_mass operating_mass) (J_oem_fuel_vol__fuel_density fuel_density design_gross_mass operating_mass) fuel_density := by
  simp only [out_oem_fuel_vol, J_oem_fuel_vol__fuel_density, oem_fuel_vol, oem_wingfuel_wt]
  (apply hasDerivAt_of_eq; on_goal 1 => (repeat' comp_step))
  all_goals try comp_side
  all_goals try simp only [mul_zero, zero_mul, add_zero, zero_add, sub_zero, zero_sub, mul_one, one_mul]
  all_goals try push_cast
  all_goals comp_eq

theorem d_oem_fuel_vol__design_gross_mass (fuel_density design_gross_mass operating_mass : ℝ) (h0
    : 0 < fuel_density) :
    HasDerivAt (fun t => out_oem_fuel_vol fuel_density t operating_mass) (J_oem_fuel_vol__design_gross_mass fuel_density) design_gross_mass := by
  simp only [out_oem_fuel_vol, J_oem_fuel_vol__design_gross_mass, oem_fuel_vol, oem_wingfuel_wt]
  (apply hasDerivAt_of_eq; on_goal 1 => (repeat' comp_step))
  all_goals try comp_side
  all_goals try simp only [mul_zero, zero_mul, add_zero, zero_add, sub_zero, zero_sub, mul_one, one_mul]
  all_goals try push_cast
  all_goals comp_eq

theorem d_oem_fuel_vol__operating_mass (fuel_density design_gross_mass operating_mass : ℝ) (h0 : 0
    < fuel_density) :
    HasDerivAt (fun t => out_oem_fuel_vol fuel_density design_gross_mass t) (J_oem_fuel_vol__operating_mass fuel_density) operating_mass := by
  simp only [out_oem_fuel_vol, J_oem_fuel_vol__operating_mass, oem_fuel_vol, oem_wingfuel_wt]
  (apply hasDerivAt_of_eq; on_goal 1 => (repeat' comp_step))
  all_goals try comp_side
  all_goals try simp only [mul_zero, zero_mul, add_zero, zero_add, sub_zero, zero_sub, mul_one, one_mul]
  all_goals try push_cast
  all_goals comp_eq

theorem d_fuel_wing_volume_design__fuel_density (fuel_density fuel_mass_required
    fuel_volume_margin : ℝ) (h0 : 0 < fuel_density) :
    HasDerivAt (fun t => out_fuel_wing_volume_design t fuel_mass_required fuel_volume_margin) (J_fuel_wing_volume_design__fuel_density fuel_density fuel_mass_required fuel_volume_margin) fuel_density := by
  simp only [out_fuel_wing_volume_design, J_fuel_wing_volume_design__fuel_density, design_fuel_vol]
  (apply hasDerivAt_of_eq; on_goal 1 => (repeat' comp_step))
  all_goals try comp_side
  all_goals try simp only [mul_zero, zero_mul, add_zero, zero_add, sub_zero, zero_sub, mul_one, one_mul]
  all_goals try push_cast
  all_goals comp_eq

theorem d_fuel_wing_volume_design__fuel_mass_required (fuel_density fuel_mass_required
    fuel_volume_margin : ℝ) (h0 : 0 < fuel_density) :
    HasDerivAt (fun t => out_fuel_wing_volume_design fuel_density t fuel_volume_margin) (J_fuel_wing_volume_design__fuel_mass_required fuel_density fuel_volume_margin) fuel_mass_required := by
  simp only [out_fuel_wing_volume_design, J_fuel_wing_volume_design__fuel_mass_required, design_fuel_vol]
  (apply hasDerivAt_of_eq; on_goal 1 => (repeat' comp_step))
  all_goals try comp_side
  all_goals try simp only [mul_zero, zero_mul, add_zero, zero_add, sub_zero, zero_sub, mul_one, one_mul]
  all_goals try push_cast
  all_goals comp_eq

theorem d_fuel_wing_volume_design__fuel_volume_margin (fuel_density fuel_mass_required
    fuel_volume_margin : ℝ) (h0 : 0 < fuel_density) :
    HasDerivAt (fun t => out_fuel_wing_volume_design fuel_density fuel_mass_required t) (J_fuel_wing_volume_design__fuel_volume_margin fuel_density fuel_mass_required) fuel_volume_margin := by
  simp only [out_fuel_wing_volume_design, J_fuel_wing_volume_design__fuel_volume_margin, design_fuel_vol]
  (apply hasDerivAt_of_eq; on_goal 1 => (repeat' comp_step))
  all_goals try comp_side
  all_goals try simp only [mul_zero, zero_mul, add_zero, zero_add, sub_zero, zero_sub, mul_one, one_mul]
  all_goals try push_cast
  all_goals comp_eq

theorem d_payload_mass_max_fuel__design_gross_mass (design_gross_mass operating_mass
    fuel_max_capacity_mass fuel_unusable_fuel_mass : ℝ)  :
    HasDerivAt (fun t => out_payload_mass_max_fuel t operating_mass fuel_max_capacity_mass fuel_unusable_fuel_mass) (J_payload_mass_max_fuel__design_gross_mass) design_gross_mass := by
  simp only [out_payload_mass_max_fuel, J_payload_mass_max_fuel__design_gross_mass, payload_wt_max_fuel, max_fuel_avail]
  (apply hasDerivAt_of_eq; on_goal 1 => (repeat' comp_step))
  all_goals try comp_side
  all_goals try simp only [mul_zero, zero_mul, add_zero, zero_add, sub_zero, zero_sub, mul_one, one_mul]
  all_goals try push_cast
  all_goals comp_eq

theorem d_payload_mass_max_fuel__operating_mass (design_gross_mass operating_mass
    fuel_max_capacity_mass fuel_unusable_fuel_mass : ℝ)  :
    HasDerivAt (fun t => out_payload_mass_max_fuel design_gross_mass t fuel_max_capacity_mass fuel_unusable_fuel_mass) (J_payload_mass_max_fuel__operating_mass) operating_mass := by
  simp only [out_payload_mass_max_fuel, J_payload_mass_max_fuel__operating_mass, payload_wt_max_fuel, max_fuel_avail]
  (apply hasDerivAt_of_eq; on_goal 1 => (repeat' comp_step))
  all_goals try comp_side
  all_goals try simp only [mul_zero, zero_mul, add_zero, zero_add, sub_zero, zero_sub, mul_one, one_mul]
  all_goals try push_cast
  all_goals comp_eq

theorem d_payload_mass_max_fuel__fuel_max_capacity_mass (design_gross_mass operating_mass
    fuel_max_capacity_mass fuel_unusable_fuel_mass : ℝ)  :
    HasDerivAt (fun t => out_payload_mass_max_fuel design_gross_mass operating_mass t fuel_unusable_fuel_mass) (J_payload_mass_max_fuel__fuel_max_capacity_mass) fuel_max_capacity_mass := by
  simp only [out_payload_mass_max_fuel, J_payload_mass_max_fuel__fuel_max_capacity_mass, payload_wt_max_fuel, max_fuel_avail]
  (apply hasDerivAt_of_eq; on_goal 1 => (repeat' comp_step))
  all_goals try comp_side
  all_goals try simp only [mul_zero, zero_mul, add_zero, zero_add, sub_zero, zero_sub, mul_one, one_mul]
  all_goals try push_cast
  all_goals comp_eq

theorem d_payload_mass_max_fuel__fuel_unusable_fuel_mass (design_gross_mass operating_mass
    fuel_max_capacity_mass fuel_unusable_fuel_mass : ℝ)  :
    HasDerivAt (fun t => out_payload_mass_max_fuel design_gross_mass operating_mass fuel_max_capacity_mass t) (J_payload_mass_max_fuel__fuel_unusable_fuel_mass) fuel_unusable_fuel_mass := by
  simp only [out_payload_mass_max_fuel, J_payload_mass_max_fuel__fuel_unusable_fuel_mass, payload_wt_max_fuel, max_fuel_avail]
  (apply hasDerivAt_of_eq; on_goal 1 => (repeat' comp_step))
  all_goals try comp_side
  all_goals try simp only [mul_zero, zero_mul, add_zero, zero_add, sub_zero, zero_sub, mul_one, one_mul]
  all_goals try push_cast
  all_goals comp_eq

theorem d_volume_wingfuel_mass__fuel_density (fuel_density fuel_wing_volume_geometric_max : ℝ)  :
    HasDerivAt (fun t => out_volume_wingfuel_mass t fuel_wing_volume_geometric_max) (J_volume_wingfuel_mass__fuel_density fuel_wing_volume_geometric_max) fuel_density := by
  simp only [out_volume_wingfuel_mass, J_volume_wingfuel_mass__fuel_density, volume_wingfuel_wt]
  (apply hasDerivAt_of_eq; on_goal 1 => (repeat' comp_step))
  all_goals try comp_side
  all_goals try simp only [mul_zero, zero_mul, add_zero, zero_add, sub_zero, zero_sub, mul_one, one_mul]
  all_goals try push_cast
  all_goals comp_eq

theorem d_volume_wingfuel_mass__fuel_wing_volume_geometric_max (fuel_density
    fuel_wing_volume_geometric_max : ℝ)  :
    HasDerivAt (fun t => out_volume_wingfuel_mass fuel_density t) (J_volume_wingfuel_mass__fuel_wing_volume_geometric_max fuel_density) fuel_wing_volume_geometric_max := by
  simp only [out_volume_wingfuel_mass, J_volume_wingfuel_mass__fuel_wing_volume_geometric_max, volume_wingfuel_wt]
  (apply hasDerivAt_of_eq; on_goal 1 => (repeat' comp_step))
  all_goals try comp_side
  all_goals try simp only [mul_zero, zero_mul, add_zero, zero_add, sub_zero, zero_sub, mul_one, one_mul]
  all_goals try push_cast
  all_goals comp_eq

/-- Partial derivatives of `FuelComponents` that are proved correct (the rest is listed in the header). -/
theorem partials_partial (fuel_density design_gross_mass fuel_mass_required
    fuel_wing_volume_geometric_max fuel_volume_margin operating_mass fuel_max_capacity_mass
    fuel_unusable_fuel_mass : ℝ) (h0 : 0 < fuel_density) :
    HasDerivAt (fun t => out_oem_wingfuel_mass t operating_mass)
      (J_oem_wingfuel_mass__design_gross_mass) design_gross_mass ∧
    HasDerivAt (fun t => out_oem_wingfuel_mass design_gross_mass t)
      (J_oem_wingfuel_mass__operating_mass) operating_mass ∧
    HasDerivAt (fun t => out_oem_fuel_vol t design_gross_mass operating_mass)
      (J_oem_fuel_vol__fuel_density fuel_density design_gross_mass operating_mass) fuel_density ∧
    HasDerivAt (fun t => out_oem_fuel_vol fuel_density t operating_mass)
      (J_oem_fuel_vol__design_gross_mass fuel_density) design_gross_mass ∧
    HasDerivAt (fun t => out_oem_fuel_vol fuel_density design_gross_mass t)
      (J_oem_fuel_vol__operating_mass fuel_density) operating_mass ∧
    HasDerivAt (fun t => out_fuel_wing_volume_design t fuel_mass_required fuel_volume_margin)
      (J_fuel_wing_volume_design__fuel_density fuel_density fuel_mass_required fuel_volume_margin)
      fuel_density ∧
    HasDerivAt (fun t => out_fuel_wing_volume_design fuel_density t fuel_volume_margin)
      (J_fuel_wing_volume_design__fuel_mass_required fuel_density fuel_volume_margin)
      fuel_mass_required ∧
    HasDerivAt (fun t => out_fuel_wing_volume_design fuel_density fuel_mass_required t)
      (J_fuel_wing_volume_design__fuel_volume_margin fuel_density fuel_mass_required)
      fuel_volume_margin ∧
    HasDerivAt (fun t => out_payload_mass_max_fuel t operating_mass fuel_max_capacity_mass
      fuel_unusable_fuel_mass) (J_payload_mass_max_fuel__design_gross_mass) design_gross_mass ∧
    HasDerivAt (fun t => out_payload_mass_max_fuel design_gross_mass t fuel_max_capacity_mass
      fuel_unusable_fuel_mass) (J_payload_mass_max_fuel__operating_mass) operating_mass ∧
    HasDerivAt (fun t => out_payload_mass_max_fuel design_gross_mass operating_mass t
      fuel_unusable_fuel_mass) (J_payload_mass_max_fuel__fuel_max_capacity_mass)
      fuel_max_capacity_mass ∧
    HasDerivAt (fun t => out_payload_mass_max_fuel design_gross_mass operating_mass
      fuel_max_capacity_mass t) (J_payload_mass_max_fuel__fuel_unusable_fuel_mass)
      fuel_unusable_fuel_mass ∧
    HasDerivAt (fun t => out_volume_wingfuel_mass t fuel_wing_volume_geometric_max)
      (J_volume_wingfuel_mass__fuel_density fuel_wing_volume_geometric_max) fuel_density ∧
    HasDerivAt (fun t => out_volume_wingfuel_mass fuel_density t)
      (J_volume_wingfuel_mass__fuel_wing_volume_geometric_max fuel_density)
      fuel_wing_volume_geometric_max :=
  ⟨d_oem_wingfuel_mass__design_gross_mass _ _, d_oem_wingfuel_mass__operating_mass _ _,
    d_oem_fuel_vol__fuel_density _ _ _ h0, d_oem_fuel_vol__design_gross_mass _ _ _ h0,
    d_oem_fuel_vol__operating_mass _ _ _ h0, d_fuel_wing_volume_design__fuel_density _ _ _ h0,
    d_fuel_wing_volume_design__fuel_mass_required _ _ _ h0,
    d_fuel_wing_volume_design__fuel_volume_margin _ _ _ h0,
    d_payload_mass_max_fuel__design_gross_mass _ _ _ _, d_payload_mass_max_fuel__operating_mass _
    _ _ _, d_payload_mass_max_fuel__fuel_max_capacity_mass _ _ _ _,
    d_payload_mass_max_fuel__fuel_unusable_fuel_mass _ _ _ _, d_volume_wingfuel_mass__fuel_density
    _ _, d_volume_wingfuel_mass__fuel_wing_volume_geometric_max _ _⟩

example : ∃ fuel_density design_gross_mass fuel_mass_required fuel_wing_volume_geometric_max
      fuel_volume_margin operating_mass fuel_max_capacity_mass fuel_unusable_fuel_mass : ℝ,
      0 < fuel_density :=
  ⟨1, 0, 0, 0, 0, 0, 0, 0, by comp_example⟩

end Verif.Comp.MassGaspBasedFuel.FuelComponents_smooth

namespace Verif.Comp.MassGaspBasedFuel.FuelComponents_no_smooth
open Real

/-- aviary/subsystems/mass/gasp_based/fuel.py:597 -/
noncomputable abbrev max_fuel_avail (fuel_max_capacity_mass fuel_unusable_fuel_mass : ℝ) : ℝ :=
  fuel_max_capacity_mass - fuel_unusable_fuel_mass

/-- aviary/subsystems/mass/gasp_based/fuel.py:599 -/
noncomputable abbrev oem_wingfuel_wt (design_gross_mass operating_mass : ℝ) : ℝ :=
  design_gross_mass - operating_mass

/-- aviary/subsystems/mass/gasp_based/fuel.py:601 -/
noncomputable abbrev oem_fuel_vol (fuel_density design_gross_mass operating_mass : ℝ) : ℝ :=
  (oem_wingfuel_wt design_gross_mass operating_mass) / fuel_density

/-- aviary/subsystems/mass/gasp_based/fuel.py:602 -/
noncomputable abbrev design_fuel_vol (fuel_density fuel_mass_required fuel_volume_margin : ℝ) : ℝ :=
  ((1 + (fuel_volume_margin / 100)) * fuel_mass_required) / fuel_density

/-- aviary/subsystems/mass/gasp_based/fuel.py:604 -/
noncomputable abbrev volume_wingfuel_wt (fuel_density fuel_wing_volume_geometric_max : ℝ) : ℝ :=
  fuel_wing_volume_geometric_max * fuel_density

/-- aviary/subsystems/mass/gasp_based/fuel.py:610 -/
noncomputable abbrev max_wingfuel_wt (fuel_density design_gross_mass fuel_wing_volume_geometric_max operating_mass : ℝ) : ℝ :=
  if (oem_wingfuel_wt design_gross_mass operating_mass) < (volume_wingfuel_wt fuel_density
    fuel_wing_volume_geometric_max) then (oem_wingfuel_wt design_gross_mass operating_mass) else
    (volume_wingfuel_wt fuel_density fuel_wing_volume_geometric_max)

/-- aviary/subsystems/mass/gasp_based/fuel.py:614 -/
noncomputable abbrev payload_wt_max_fuel (design_gross_mass operating_mass fuel_max_capacity_mass fuel_unusable_fuel_mass : ℝ) : ℝ :=
  (design_gross_mass - operating_mass) - (max_fuel_avail fuel_max_capacity_mass
    fuel_unusable_fuel_mass)

/-- aviary/subsystems/mass/gasp_based/fuel.py:615 -/
noncomputable abbrev max_wingfuel_vol (fuel_density design_gross_mass fuel_wing_volume_geometric_max operating_mass : ℝ) : ℝ :=
  (max_wingfuel_wt fuel_density design_gross_mass fuel_wing_volume_geometric_max operating_mass)
    / fuel_density

/-- Output `oem_wingfuel_mass` of `FuelComponents.compute`, aviary/subsystems/mass/gasp_based/fuel.py:617 -/
noncomputable def out_oem_wingfuel_mass (design_gross_mass operating_mass : ℝ) : ℝ :=
  oem_wingfuel_wt design_gross_mass operating_mass

/-- Output `oem_fuel_vol` of `FuelComponents.compute`, aviary/subsystems/mass/gasp_based/fuel.py:618 -/
noncomputable def out_oem_fuel_vol (fuel_density design_gross_mass operating_mass : ℝ) : ℝ :=
  oem_fuel_vol fuel_density design_gross_mass operating_mass

/-- Output `fuel_wing_volume_design` of `FuelComponents.compute`, aviary/subsystems/mass/gasp_based/fuel.py:619 -/
noncomputable def out_fuel_wing_volume_design (fuel_density fuel_mass_required fuel_volume_margin : ℝ) : ℝ :=
  design_fuel_vol fuel_density fuel_mass_required fuel_volume_margin

/-- Output `payload_mass_max_fuel` of `FuelComponents.compute`, aviary/subsystems/mass/gasp_based/fuel.py:620 -/
noncomputable def out_payload_mass_max_fuel (design_gross_mass operating_mass fuel_max_capacity_mass fuel_unusable_fuel_mass : ℝ) : ℝ :=
  payload_wt_max_fuel design_gross_mass operating_mass fuel_max_capacity_mass
    fuel_unusable_fuel_mass

/-- Output `volume_wingfuel_mass` of `FuelComponents.compute`, aviary/subsystems/mass/gasp_based/fuel.py:621 -/
noncomputable def out_volume_wingfuel_mass (fuel_density fuel_wing_volume_geometric_max : ℝ) : ℝ :=
  volume_wingfuel_wt fuel_density fuel_wing_volume_geometric_max

/-- Output `max_wingfuel_mass` of `FuelComponents.compute`, aviary/subsystems/mass/gasp_based/fuel.py:622 -/
noncomputable def out_max_wingfuel_mass (fuel_density design_gross_mass fuel_wing_volume_geometric_max operating_mass : ℝ) : ℝ :=
  max_wingfuel_wt fuel_density design_gross_mass fuel_wing_volume_geometric_max operating_mass

/-- Output `fuel_wing_volume_structural_max` of `FuelComponents.compute`, aviary/subsystems/mass/gasp_based/fuel.py:623 -/
noncomputable def out_fuel_wing_volume_structural_max (fuel_density design_gross_mass fuel_wing_volume_geometric_max operating_mass : ℝ) : ℝ :=
  max_wingfuel_vol fuel_density design_gross_mass fuel_wing_volume_geometric_max operating_mass

/-- Partial of `payload_mass_max_fuel` with respect to `design_gross_mass` as set by `FuelComponents`, aviary/subsystems/mass/gasp_based/fuel.py:552 -/
noncomputable def J_payload_mass_max_fuel__design_gross_mass : ℝ := 1

/-- Partial of `payload_mass_max_fuel` with respect to `fuel_max_capacity_mass` as set by `FuelComponents`, aviary/subsystems/mass/gasp_based/fuel.py:553 -/
noncomputable def J_payload_mass_max_fuel__fuel_max_capacity_mass : ℝ := -1

/-- Partial of `payload_mass_max_fuel` with respect to `operating_mass` as set by `FuelComponents`, aviary/subsystems/mass/gasp_based/fuel.py:553 -/
noncomputable def J_payload_mass_max_fuel__operating_mass : ℝ := -1

/-- Partial of `payload_mass_max_fuel` with respect to `fuel_unusable_fuel_mass` as set by `FuelComponents`, aviary/subsystems/mass/gasp_based/fuel.py:561 -/
noncomputable def J_payload_mass_max_fuel__fuel_unusable_fuel_mass : ℝ := 1

/-- Partial of `oem_wingfuel_mass` with respect to `design_gross_mass` as set by `FuelComponents`, aviary/subsystems/mass/gasp_based/fuel.py:647 -/
noncomputable def J_oem_wingfuel_mass__design_gross_mass : ℝ := 1

/-- Partial of `oem_wingfuel_mass` with respect to `operating_mass` as set by `FuelComponents`, aviary/subsystems/mass/gasp_based/fuel.py:648 -/
noncomputable def J_oem_wingfuel_mass__operating_mass : ℝ := -1

/-- Partial of `oem_fuel_vol` with respect to `design_gross_mass` as set by `FuelComponents`, aviary/subsystems/mass/gasp_based/fuel.py:650 -/
noncomputable def J_oem_fuel_vol__design_gross_mass (fuel_density : ℝ) : ℝ := 1 / fuel_density

/-- Partial of `oem_fuel_vol` with respect to `operating_mass` as set by `FuelComponents`, aviary/subsystems/mass/gasp_based/fuel.py:651 -/
noncomputable def J_oem_fuel_vol__operating_mass (fuel_density : ℝ) : ℝ := (-1) / fuel_density

/-- Partial of `oem_fuel_vol` with respect to `fuel_density` as set by `FuelComponents`, aviary/subsystems/mass/gasp_based/fuel.py:652 -/
noncomputable def J_oem_fuel_vol__fuel_density (fuel_density design_gross_mass operating_mass : ℝ) : ℝ :=
  (-(oem_wingfuel_wt design_gross_mass operating_mass)) / (fuel_density ^ 2)

/-- Partial of `fuel_wing_volume_design` with respect to `fuel_mass_required` as set by `FuelComponents`, aviary/subsystems/mass/gasp_based/fuel.py:654 -/
noncomputable def J_fuel_wing_volume_design__fuel_mass_required (fuel_density fuel_volume_margin : ℝ) : ℝ :=
  (1 + (fuel_volume_margin / 100)) / fuel_density

/-- Partial of `fuel_wing_volume_design` with respect to `fuel_density` as set by `FuelComponents`, aviary/subsystems/mass/gasp_based/fuel.py:657 -/
noncomputable def J_fuel_wing_volume_design__fuel_density (fuel_density fuel_mass_required fuel_volume_margin : ℝ) : ℝ :=
  ((-(1 + (fuel_volume_margin / 100))) * fuel_mass_required) / (fuel_density ^ 2)

/-- Partial of `fuel_wing_volume_design` with respect to `fuel_volume_margin` as set by `FuelComponents`, aviary/subsystems/mass/gasp_based/fuel.py:660 -/
noncomputable def J_fuel_wing_volume_design__fuel_volume_margin (fuel_density fuel_mass_required : ℝ) : ℝ :=
  ((1 / 100) * fuel_mass_required) / fuel_density

/-- Partial of `volume_wingfuel_mass` with respect to `fuel_wing_volume_geometric_max` as set by `FuelComponents`, aviary/subsystems/mass/gasp_based/fuel.py:664 -/
noncomputable def J_volume_wingfuel_mass__fuel_wing_volume_geometric_max (fuel_density : ℝ) : ℝ :=
  fuel_density

/-- Partial of `volume_wingfuel_mass` with respect to `fuel_density` as set by `FuelComponents`, aviary/subsystems/mass/gasp_based/fuel.py:667 -/
noncomputable def J_volume_wingfuel_mass__fuel_density (fuel_wing_volume_geometric_max : ℝ) : ℝ :=
  fuel_wing_volume_geometric_max

/-- Partial of `max_wingfuel_mass` with respect to `design_gross_mass` as set by `FuelComponents`, aviary/subsystems/mass/gasp_based/fuel.py:724 -/
noncomputable def J_max_wingfuel_mass__design_gross_mass (fuel_density design_gross_mass fuel_wing_volume_geometric_max operating_mass : ℝ) : ℝ :=
  if (oem_wingfuel_wt design_gross_mass operating_mass) < (volume_wingfuel_wt fuel_density
    fuel_wing_volume_geometric_max) then 1 else 0

/-- Partial of `max_wingfuel_mass` with respect to `operating_mass` as set by `FuelComponents`, aviary/subsystems/mass/gasp_based/fuel.py:725 -/
noncomputable def J_max_wingfuel_mass__operating_mass (fuel_density design_gross_mass fuel_wing_volume_geometric_max operating_mass : ℝ) : ℝ :=
  if (oem_wingfuel_wt design_gross_mass operating_mass) < (volume_wingfuel_wt fuel_density
    fuel_wing_volume_geometric_max) then (-1) else 0

/-- Partial of `max_wingfuel_mass` with respect to `fuel_wing_volume_geometric_max` as set by `FuelComponents`, aviary/subsystems/mass/gasp_based/fuel.py:726 -/
noncomputable def J_max_wingfuel_mass__fuel_wing_volume_geometric_max (fuel_density design_gross_mass fuel_wing_volume_geometric_max operating_mass : ℝ) : ℝ :=
  if (oem_wingfuel_wt design_gross_mass operating_mass) < (volume_wingfuel_wt fuel_density
    fuel_wing_volume_geometric_max) then 0 else fuel_density

/-- Partial of `max_wingfuel_mass` with respect to `fuel_density` as set by `FuelComponents`, aviary/subsystems/mass/gasp_based/fuel.py:729 -/
noncomputable def J_max_wingfuel_mass__fuel_density (fuel_density design_gross_mass fuel_wing_volume_geometric_max operating_mass : ℝ) : ℝ :=
  if (oem_wingfuel_wt design_gross_mass operating_mass) < (volume_wingfuel_wt fuel_density
    fuel_wing_volume_geometric_max) then 0 else fuel_wing_volume_geometric_max

/-- Partial of `fuel_wing_volume_structural_max` with respect to `design_gross_mass` as set by `FuelComponents`, aviary/subsystems/mass/gasp_based/fuel.py:762 -/
noncomputable def J_fuel_wing_volume_structural_max__design_gross_mass (fuel_density design_gross_mass fuel_wing_volume_geometric_max operating_mass : ℝ) : ℝ :=
  if (oem_wingfuel_wt design_gross_mass operating_mass) < (volume_wingfuel_wt fuel_density
    fuel_wing_volume_geometric_max) then (1 / fuel_density) else ((if (oem_wingfuel_wt
    design_gross_mass operating_mass) < (volume_wingfuel_wt fuel_density
    fuel_wing_volume_geometric_max) then 1 else 0) / fuel_density)

/-- Partial of `fuel_wing_volume_structural_max` with respect to `operating_mass` as set by `FuelComponents`, aviary/subsystems/mass/gasp_based/fuel.py:765 -/
noncomputable def J_fuel_wing_volume_structural_max__operating_mass (fuel_density design_gross_mass fuel_wing_volume_geometric_max operating_mass : ℝ) : ℝ :=
  if (oem_wingfuel_wt design_gross_mass operating_mass) < (volume_wingfuel_wt fuel_density
    fuel_wing_volume_geometric_max) then ((-1) / fuel_density) else ((if (oem_wingfuel_wt
    design_gross_mass operating_mass) < (volume_wingfuel_wt fuel_density
    fuel_wing_volume_geometric_max) then (-1) else 0) / fuel_density)

/-- Partial of `fuel_wing_volume_structural_max` with respect to `fuel_wing_volume_geometric_max` as set by `FuelComponents`, aviary/subsystems/mass/gasp_based/fuel.py:768 -/
noncomputable def J_fuel_wing_volume_structural_max__fuel_wing_volume_geometric_max (fuel_density design_gross_mass fuel_wing_volume_geometric_max operating_mass : ℝ) : ℝ :=
  if (oem_wingfuel_wt design_gross_mass operating_mass) < (volume_wingfuel_wt fuel_density
    fuel_wing_volume_geometric_max) then 0 else ((if (oem_wingfuel_wt design_gross_mass
    operating_mass) < (volume_wingfuel_wt fuel_density fuel_wing_volume_geometric_max) then 0
    else fuel_density) / fuel_density)

/-- Partial of `fuel_wing_volume_structural_max` with respect to `fuel_density` as set by `FuelComponents`, aviary/subsystems/mass/gasp_based/fuel.py:776 -/
noncomputable def J_fuel_wing_volume_structural_max__fuel_density (fuel_density design_gross_mass fuel_wing_volume_geometric_max operating_mass : ℝ) : ℝ :=
  if (oem_wingfuel_wt design_gross_mass operating_mass) < (volume_wingfuel_wt fuel_density
    fuel_wing_volume_geometric_max) then ((-(max_wingfuel_wt fuel_density design_gross_mass
    fuel_wing_volume_geometric_max operating_mass)) / (fuel_density ^ 2)) else (((if
    (oem_wingfuel_wt design_gross_mass operating_mass) < (volume_wingfuel_wt fuel_density
    fuel_wing_volume_geometric_max) then 0 else fuel_wing_volume_geometric_max) / fuel_density)
    - ((max_wingfuel_wt fuel_density design_gross_mass fuel_wing_volume_geometric_max
    operating_mass) / (fuel_density ^ 2)))

theorem d_oem_wingfuel_mass__design_gross_mass (design_gross_mass operating_mass : ℝ)  :
    HasDerivAt (fun t => out_oem_wingfuel_mass t operating_mass) (J_oem_wingfuel_mass__design_gross_mass) design_gross_mass := by
  simp only [out_oem_wingfuel_mass, J_oem_wingfuel_mass__design_gross_mass, oem_wingfuel_wt]
  (apply hasDerivAt_of_eq; on_goal 1 => (repeat' comp_step))
  all_goals try comp_side
  all_goals try simp only [mul_zero, zero_mul, add_zero, zero_add, sub_zero, zero_sub, mul_one, one_mul]
  all_goals try push_cast
  all_goals comp_eq

theorem d_oem_wingfuel_mass__operating_mass (design_gross_mass operating_mass : ℝ)  :
    HasDerivAt (fun t => out_oem_wingfuel_mass design_gross_mass t) (J_oem_wingfuel_mass__operating_mass) operating_mass := by
  simp only [out_oem_wingfuel_mass, J_oem_wingfuel_mass__operating_mass, oem_wingfuel_wt]
  (apply hasDerivAt_of_eq; on_goal 1 => (repeat' comp_step))
  all_goals try comp_side
  all_goals try simp only [mul_zero, zero_mul, add_zero, zero_add, sub_zero, zero_sub, mul_one, one_mul]
  all_goals try push_cast
  all_goals comp_eq

theorem d_oem_fuel_vol__fuel_density (fuel_density design_gross_mass operating_mass : ℝ) (h0 : 0 <
    fuel_density) :
    HasDerivAt (fun t => out_oem_fuel_vol t design_gross_mass operating_mass) (J_oem_fuel_vol__fuel_density fuel_density design_gross_mass operating_mass) fuel_density := by
  simp only [out_oem_fuel_vol, J_oem_fuel_vol__fuel_density, oem_fuel_vol, oem_wingfuel_wt]
  (apply hasDerivAt_of_eq; on_goal 1 => (repeat' comp_step))
  all_goals try comp_side
  all_goals try simp only [mul_zero, zero_mul, add_zero, zero_add, sub_zero, zero_sub, mul_one, one_mul]
  all_goals try push_cast
  all_goals comp_eq

theorem d_oem_fuel_vol__design_gross_mass (fuel_density design_gross_mass operating_mass : ℝ) (h0
    : 0 < fuel_density) :
    HasDerivAt (fun t => out_oem_fuel_vol fuel_density t operating_mass) (J_oem_fuel_vol__design_gross_mass fuel_density) design_gross_mass := by
  simp only [out_oem_fuel_vol, J_oem_fuel_vol__design_gross_mass, oem_fuel_vol, oem_wingfuel_wt]
  (apply hasDerivAt_of_eq; on_goal 1 => (repeat' comp_step))
  all_goals try comp_side
  all_goals try simp only [mul_zero, zero_mul, add_zero, zero_add, sub_zero, zero_sub, mul_one, one_mul]
  all_goals try push_cast
  all_goals comp_eq

theorem d_oem_fuel_vol__operating_mass (fuel_density design_gross_mass operating_mass : ℝ) (h0 : 0
    < fuel_density) :
    HasDerivAt (fun t => out_oem_fuel_vol fuel_density design_gross_mass t) (J_oem_fuel_vol__operating_mass fuel_density) operating_mass := by
  simp only [out_oem_fuel_vol, J_oem_fuel_vol__operating_mass, oem_fuel_vol, oem_wingfuel_wt]
  (apply hasDerivAt_of_eq; on_goal 1 => (repeat' comp_step))
  all_goals try comp_side
  all_goals try simp only [mul_zero, zero_mul, add_zero, zero_add, sub_zero, zero_sub, mul_one, one_mul]
  all_goals try push_cast
  all_goals comp_eq

theorem d_fuel_wing_volume_design__fuel_density (fuel_density fuel_mass_required
    fuel_volume_margin : ℝ) (h0 : 0 < fuel_density) :
    HasDerivAt (fun t => out_fuel_wing_volume_design t fuel_mass_required fuel_volume_margin) (J_fuel_wing_volume_design__fuel_density fuel_density fuel_mass_required fuel_volume_margin) fuel_density := by
  simp only [out_fuel_wing_volume_design, J_fuel_wing_volume_design__fuel_density, design_fuel_vol]
  (apply hasDerivAt_of_eq; on_goal 1 => (repeat' comp_step))
  all_goals try comp_side
  all_goals try simp only [mul_zero, zero_mul, add_zero, zero_add, sub_zero, zero_sub, mul_one, one_mul]
  all_goals try push_cast
  all_goals comp_eq

theorem d_fuel_wing_volume_design__fuel_mass_required (fuel_density fuel_mass_required
    fuel_volume_margin : ℝ) (h0 : 0 < fuel_density) :
    HasDerivAt (fun t => out_fuel_wing_volume_design fuel_density t fuel_volume_margin) (J_fuel_wing_volume_design__fuel_mass_required fuel_density fuel_volume_margin) fuel_mass_required := by
  simp only [out_fuel_wing_volume_design, J_fuel_wing_volume_design__fuel_mass_required, design_fuel_vol]
  (apply hasDerivAt_of_eq; on_goal 1 => (repeat' comp_step))
  all_goals try comp_side
  all_goals try simp only [mul_zero, zero_mul, add_zero, zero_add, sub_zero, zero_sub, mul_one, one_mul]
  all_goals try push_cast
  all_goals comp_eq

theorem d_fuel_wing_volume_design__fuel_volume_margin (fuel_density fuel_mass_required
    fuel_volume_margin : ℝ) (h0 : 0 < fuel_density) :
    HasDerivAt (fun t => out_fuel_wing_volume_design fuel_density fuel_mass_required t) (J_fuel_wing_volume_design__fuel_volume_margin fuel_density fuel_mass_required) fuel_volume_margin := by
  simp only [out_fuel_wing_volume_design, J_fuel_wing_volume_design__fuel_volume_margin, design_fuel_vol]
  (apply hasDerivAt_of_eq; on_goal 1 => (repeat' comp_step))
  all_goals try comp_side
  all_goals try simp only [mul_zero, zero_mul, add_zero, zero_add, sub_zero, zero_sub, mul_one, one_mul]
  all_goals try push_cast
  all_goals comp_eq

theorem d_payload_mass_max_fuel__design_gross_mass (design_gross_mass operating_mass
    fuel_max_capacity_mass fuel_unusable_fuel_mass : ℝ)  :
    HasDerivAt (fun t => out_payload_mass_max_fuel t operating_mass fuel_max_capacity_mass fuel_unusable_fuel_mass) (J_payload_mass_max_fuel__design_gross_mass) design_gross_mass := by
  simp only [out_payload_mass_max_fuel, J_payload_mass_max_fuel__design_gross_mass, payload_wt_max_fuel, max_fuel_avail]
  (apply hasDerivAt_of_eq; on_goal 1 => (repeat' comp_step))
  all_goals try comp_side
  all_goals try simp only [mul_zero, zero_mul, add_zero, zero_add, sub_zero, zero_sub, mul_one, one_mul]
  all_goals try push_cast
  all_goals comp_eq

theorem d_payload_mass_max_fuel__operating_mass (design_gross_mass operating_mass
    fuel_max_capacity_mass fuel_unusable_fuel_mass : ℝ)  :
    HasDerivAt (fun t => out_payload_mass_max_fuel design_gross_mass t fuel_max_capacity_mass fuel_unusable_fuel_mass) (J_payload_mass_max_fuel__operating_mass) operating_mass := by
  simp only [out_payload_mass_max_fuel, J_payload_mass_max_fuel__operating_mass, payload_wt_max_fuel, max_fuel_avail]
  (apply hasDerivAt_of_eq; on_goal 1 => (repeat' comp_step))
  all_goals try comp_side
  all_goals try simp only [mul_zero, zero_mul, add_zero, zero_add, sub_zero, zero_sub, mul_one, one_mul]
  all_goals try push_cast
  all_goals comp_eq

theorem d_payload_mass_max_fuel__fuel_max_capacity_mass (design_gross_mass operating_mass
    fuel_max_capacity_mass fuel_unusable_fuel_mass : ℝ)  :
    HasDerivAt (fun t => out_payload_mass_max_fuel design_gross_mass operating_mass t fuel_unusable_fuel_mass) (J_payload_mass_max_fuel__fuel_max_capacity_mass) fuel_max_capacity_mass := by
  simp only [out_payload_mass_max_fuel, J_payload_mass_max_fuel__fuel_max_capacity_mass, payload_wt_max_fuel, max_fuel_avail]
  (apply hasDerivAt_of_eq; on_goal 1 => (repeat' comp_step))
  all_goals try comp_side
  all_goals try simp only [mul_zero, zero_mul, add_zero, zero_add, sub_zero, zero_sub, mul_one, one_mul]
  all_goals try push_cast
  all_goals comp_eq

theorem d_payload_mass_max_fuel__fuel_unusable_fuel_mass (design_gross_mass operating_mass
    fuel_max_capacity_mass fuel_unusable_fuel_mass : ℝ)  :
    HasDerivAt (fun t => out_payload_mass_max_fuel design_gross_mass operating_mass fuel_max_capacity_mass t) (J_payload_mass_max_fuel__fuel_unusable_fuel_mass) fuel_unusable_fuel_mass := by
  simp only [out_payload_mass_max_fuel, J_payload_mass_max_fuel__fuel_unusable_fuel_mass, payload_wt_max_fuel, max_fuel_avail]
  (apply hasDerivAt_of_eq; on_goal 1 => (repeat' comp_step))
  all_goals try comp_side
  all_goals try simp only [mul_zero, zero_mul, add_zero, zero_add, sub_zero, zero_sub, mul_one, one_mul]
  all_goals try push_cast
  all_goals comp_eq

theorem d_volume_wingfuel_mass__fuel_density (fuel_density fuel_wing_volume_geometric_max : ℝ)  :
    HasDerivAt (fun t => out_volume_wingfuel_mass t fuel_wing_volume_geometric_max) (J_volume_wingfuel_mass__fuel_density fuel_wing_volume_geometric_max) fuel_density := by
  simp only [out_volume_wingfuel_mass, J_volume_wingfuel_mass__fuel_density, volume_wingfuel_wt]
  (apply hasDerivAt_of_eq; on_goal 1 => (repeat' comp_step))
  all_goals try comp_side
  all_goals try simp only [mul_zero, zero_mul, add_zero, zero_add, sub_zero, zero_sub, mul_one, one_mul]
  all_goals try push_cast
  all_goals comp_eq

theorem d_volume_wingfuel_mass__fuel_wing_volume_geometric_max (fuel_density
    fuel_wing_volume_geometric_max : ℝ)  :
    HasDerivAt (fun t => out_volume_wingfuel_mass fuel_density t) (J_volume_wingfuel_mass__fuel_wing_volume_geometric_max fuel_density) fuel_wing_volume_geometric_max := by
  simp only [out_volume_wingfuel_mass, J_volume_wingfuel_mass__fuel_wing_volume_geometric_max, volume_wingfuel_wt]
  (apply hasDerivAt_of_eq; on_goal 1 => (repeat' comp_step))
  all_goals try comp_side
  all_goals try simp only [mul_zero, zero_mul, add_zero, zero_add, sub_zero, zero_sub, mul_one, one_mul]
  all_goals try push_cast
  all_goals comp_eq

theorem d_max_wingfuel_mass__fuel_density (fuel_density design_gross_mass
    fuel_wing_volume_geometric_max operating_mass : ℝ) (h0 : fuel_wing_volume_geometric_max *
    fuel_density ≠ design_gross_mass - operating_mass) :
    HasDerivAt (fun t => out_max_wingfuel_mass t design_gross_mass fuel_wing_volume_geometric_max operating_mass) (J_max_wingfuel_mass__fuel_density fuel_density design_gross_mass fuel_wing_volume_geometric_max operating_mass) fuel_density := by
  simp only [out_max_wingfuel_mass, J_max_wingfuel_mass__fuel_density, max_wingfuel_wt, oem_wingfuel_wt, volume_wingfuel_wt]
  try split_ifs
  all_goals (apply hasDerivAt_of_eq; on_goal 1 => (repeat' comp_step))
  all_goals try comp_side
  all_goals try split_ifs
  all_goals try (exfalso; linarith)
  all_goals try simp only [mul_zero, zero_mul, add_zero, zero_add, sub_zero, zero_sub, mul_one, one_mul]
  all_goals try push_cast
  all_goals comp_eq

theorem d_max_wingfuel_mass__design_gross_mass (fuel_density design_gross_mass
    fuel_wing_volume_geometric_max operating_mass : ℝ) (h0 : fuel_wing_volume_geometric_max *
    fuel_density ≠ design_gross_mass - operating_mass) :
    HasDerivAt (fun t => out_max_wingfuel_mass fuel_density t fuel_wing_volume_geometric_max operating_mass) (J_max_wingfuel_mass__design_gross_mass fuel_density design_gross_mass fuel_wing_volume_geometric_max operating_mass) design_gross_mass := by
  simp only [out_max_wingfuel_mass, J_max_wingfuel_mass__design_gross_mass, max_wingfuel_wt, oem_wingfuel_wt, volume_wingfuel_wt]
  try split_ifs
  all_goals (apply hasDerivAt_of_eq; on_goal 1 => (repeat' comp_step))
  all_goals try comp_side
  all_goals try split_ifs
  all_goals try (exfalso; linarith)
  all_goals try simp only [mul_zero, zero_mul, add_zero, zero_add, sub_zero, zero_sub, mul_one, one_mul]
  all_goals try push_cast
  all_goals comp_eq

theorem d_max_wingfuel_mass__fuel_wing_volume_geometric_max (fuel_density design_gross_mass
    fuel_wing_volume_geometric_max operating_mass : ℝ) (h0 : fuel_wing_volume_geometric_max *
    fuel_density ≠ design_gross_mass - operating_mass) :
    HasDerivAt (fun t => out_max_wingfuel_mass fuel_density design_gross_mass t operating_mass) (J_max_wingfuel_mass__fuel_wing_volume_geometric_max fuel_density design_gross_mass fuel_wing_volume_geometric_max operating_mass) fuel_wing_volume_geometric_max := by
  simp only [out_max_wingfuel_mass, J_max_wingfuel_mass__fuel_wing_volume_geometric_max, max_wingfuel_wt, oem_wingfuel_wt, volume_wingfuel_wt]
  try split_ifs
  all_goals (apply hasDerivAt_of_eq; on_goal 1 => (repeat' comp_step))
  all_goals try comp_side
  all_goals try split_ifs
  all_goals try (exfalso; linarith)
  all_goals try simp only [mul_zero, zero_mul, add_zero, zero_add, sub_zero, zero_sub, mul_one, one_mul]
  all_goals try push_cast
  all_goals comp_eq

theorem d_max_wingfuel_mass__operating_mass (fuel_density design_gross_mass
    fuel_wing_volume_geometric_max operating_mass : ℝ) (h0 : fuel_wing_volume_geometric_max *
    fuel_density ≠ design_gross_mass - operating_mass) :
    HasDerivAt (fun t => out_max_wingfuel_mass fuel_density design_gross_mass fuel_wing_volume_geometric_max t) (J_max_wingfuel_mass__operating_mass fuel_density design_gross_mass fuel_wing_volume_geometric_max operating_mass) operating_mass := by
  simp only [out_max_wingfuel_mass, J_max_wingfuel_mass__operating_mass, max_wingfuel_wt, oem_wingfuel_wt, volume_wingfuel_wt]
  try split_ifs
  all_goals (apply hasDerivAt_of_eq; on_goal 1 => (repeat' comp_step))
  all_goals try comp_side
  all_goals try split_ifs
  all_goals try (exfalso; linarith)
  all_goals try simp only [mul_zero, zero_mul, add_zero, zero_add, sub_zero, zero_sub, mul_one, one_mul]
  all_goals try push_cast
  all_goals comp_eq

theorem d_fuel_wing_volume_structural_max__fuel_density (fuel_density design_gross_mass
    fuel_wing_volume_geometric_max operating_mass : ℝ) (h0 : fuel_wing_volume_geometric_max *
    fuel_density ≠ design_gross_mass - operating_mass) (h1 : 0 < fuel_density) :
    HasDerivAt (fun t => out_fuel_wing_volume_structural_max t design_gross_mass fuel_wing_volume_geometric_max operating_mass) (J_fuel_wing_volume_structural_max__fuel_density fuel_density design_gross_mass fuel_wing_volume_geometric_max operating_mass) fuel_density := by
  simp only [out_fuel_wing_volume_structural_max, J_fuel_wing_volume_structural_max__fuel_density, max_wingfuel_vol, max_wingfuel_wt, oem_wingfuel_wt, volume_wingfuel_wt]
  try split_ifs
  all_goals (apply hasDerivAt_of_eq; on_goal 1 => (repeat' comp_step))
  all_goals try comp_side
  all_goals try split_ifs
  all_goals try (exfalso; linarith)
  all_goals try simp only [mul_zero, zero_mul, add_zero, zero_add, sub_zero, zero_sub, mul_one, one_mul]
  all_goals try push_cast
  all_goals comp_eq

theorem d_fuel_wing_volume_structural_max__design_gross_mass (fuel_density design_gross_mass
    fuel_wing_volume_geometric_max operating_mass : ℝ) (h0 : fuel_wing_volume_geometric_max *
    fuel_density ≠ design_gross_mass - operating_mass) (h1 : 0 < fuel_density) :
    HasDerivAt (fun t => out_fuel_wing_volume_structural_max fuel_density t fuel_wing_volume_geometric_max operating_mass) (J_fuel_wing_volume_structural_max__design_gross_mass fuel_density design_gross_mass fuel_wing_volume_geometric_max operating_mass) design_gross_mass := by
  simp only [out_fuel_wing_volume_structural_max, J_fuel_wing_volume_structural_max__design_gross_mass, max_wingfuel_vol, max_wingfuel_wt, oem_wingfuel_wt, volume_wingfuel_wt]
  try split_ifs
  all_goals (apply hasDerivAt_of_eq; on_goal 1 => (repeat' comp_step))
  all_goals try comp_side
  all_goals try split_ifs
  all_goals try (exfalso; linarith)
  all_goals try simp only [mul_zero, zero_mul, add_zero, zero_add, sub_zero, zero_sub, mul_one, one_mul]
  all_goals try push_cast
  all_goals comp_eq

theorem d_fuel_wing_volume_structural_max__fuel_wing_volume_geometric_max (fuel_density
    design_gross_mass fuel_wing_volume_geometric_max operating_mass : ℝ) (h0 :
    fuel_wing_volume_geometric_max * fuel_density ≠ design_gross_mass - operating_mass) (h1 : 0 <
    fuel_density) :
    HasDerivAt (fun t => out_fuel_wing_volume_structural_max fuel_density design_gross_mass t operating_mass) (J_fuel_wing_volume_structural_max__fuel_wing_volume_geometric_max fuel_density design_gross_mass fuel_wing_volume_geometric_max operating_mass) fuel_wing_volume_geometric_max := by
  simp only [out_fuel_wing_volume_structural_max, J_fuel_wing_volume_structural_max__fuel_wing_volume_geometric_max, max_wingfuel_vol, max_wingfuel_wt, oem_wingfuel_wt, volume_wingfuel_wt]
  try split_ifs
  all_goals (apply hasDerivAt_of_eq; on_goal 1 => (repeat' comp_step))
  all_goals try comp_side
  all_goals try split_ifs
  all_goals try (exfalso; linarith)
  all_goals try simp only [mul_zero, zero_mul, add_zero, zero_add, sub_zero, zero_sub, mul_one, one_mul]
  all_goals try push_cast
  all_goals comp_eq

theorem d_fuel_wing_volume_structural_max__operating_mass (fuel_density design_gross_mass
    fuel_wing_volume_geometric_max operating_mass : ℝ) (h0 : fuel_wing_volume_geometric_max *
    fuel_density ≠ design_gross_mass - operating_mass) (h1 : 0 < fuel_density) :
    HasDerivAt (fun t => out_fuel_wing_volume_structural_max fuel_density design_gross_mass fuel_wing_volume_geometric_max t) (J_fuel_wing_volume_structural_max__operating_mass fuel_density design_gross_mass fuel_wing_volume_geometric_max operating_mass) operating_mass := by
  simp only [out_fuel_wing_volume_structural_max, J_fuel_wing_volume_structural_max__operating_mass, max_wingfuel_vol, max_wingfuel_wt, oem_wingfuel_wt, volume_wingfuel_wt]
  try split_ifs
  all_goals (apply hasDerivAt_of_eq; on_goal 1 => (repeat' comp_step))
  all_goals try comp_side
  all_goals try split_ifs
  all_goals try (exfalso; linarith)
  all_goals try simp only [mul_zero, zero_mul, add_zero, zero_add, sub_zero, zero_sub, mul_one, one_mul]
  all_goals try push_cast
  all_goals comp_eq

/-- Every partial derivative set by `FuelComponents` is the derivative of its output. -/
theorem partials (fuel_density design_gross_mass fuel_mass_required fuel_wing_volume_geometric_max
    fuel_volume_margin operating_mass fuel_max_capacity_mass fuel_unusable_fuel_mass : ℝ) (h0 : 0
    < fuel_density) (h1 : fuel_wing_volume_geometric_max * fuel_density ≠ design_gross_mass -
    operating_mass) :
    HasDerivAt (fun t => out_oem_wingfuel_mass t operating_mass)
      (J_oem_wingfuel_mass__design_gross_mass) design_gross_mass ∧
    HasDerivAt (fun t => out_oem_wingfuel_mass design_gross_mass t)
      (J_oem_wingfuel_mass__operating_mass) operating_mass ∧
    HasDerivAt (fun t => out_oem_fuel_vol t design_gross_mass operating_mass)
      (J_oem_fuel_vol__fuel_density fuel_density design_gross_mass operating_mass) fuel_density ∧
    HasDerivAt (fun t => out_oem_fuel_vol fuel_density t operating_mass)
      (J_oem_fuel_vol__design_gross_mass fuel_density) design_gross_mass ∧
    HasDerivAt (fun t => out_oem_fuel_vol fuel_density design_gross_mass t)
      (J_oem_fuel_vol__operating_mass fuel_density) operating_mass ∧
    HasDerivAt (fun t => out_fuel_wing_volume_design t fuel_mass_required fuel_volume_margin)
      (J_fuel_wing_volume_design__fuel_density fuel_density fuel_mass_required fuel_volume_margin)
      fuel_density ∧
    HasDerivAt (fun t => out_fuel_wing_volume_design fuel_density t fuel_volume_margin)
      (J_fuel_wing_volume_design__fuel_mass_required fuel_density fuel_volume_margin)
      fuel_mass_required ∧
    HasDerivAt (fun t => out_fuel_wing_volume_design fuel_density fuel_mass_required t)
      (J_fuel_wing_volume_design__fuel_volume_margin fuel_density fuel_mass_required)
      fuel_volume_margin ∧
    HasDerivAt (fun t => out_payload_mass_max_fuel t operating_mass fuel_max_capacity_mass
      fuel_unusable_fuel_mass) (J_payload_mass_max_fuel__design_gross_mass) design_gross_mass ∧
    HasDerivAt (fun t => out_payload_mass_max_fuel design_gross_mass t fuel_max_capacity_mass
      fuel_unusable_fuel_mass) (J_payload_mass_max_fuel__operating_mass) operating_mass ∧
    HasDerivAt (fun t => out_payload_mass_max_fuel design_gross_mass operating_mass t
      fuel_unusable_fuel_mass) (J_payload_mass_max_fuel__fuel_max_capacity_mass)
      fuel_max_capacity_mass ∧
    HasDerivAt (fun t => out_payload_mass_max_fuel design_gross_mass operating_mass
      fuel_max_capacity_mass t) (J_payload_mass_max_fuel__fuel_unusable_fuel_mass)
      fuel_unusable_fuel_mass ∧
    HasDerivAt (fun t => out_volume_wingfuel_mass t fuel_wing_volume_geometric_max)
      (J_volume_wingfuel_mass__fuel_density fuel_wing_volume_geometric_max) fuel_density ∧
    HasDerivAt (fun t => out_volume_wingfuel_mass fuel_density t)
      (J_volume_wingfuel_mass__fuel_wing_volume_geometric_max fuel_density)
      fuel_wing_volume_geometric_max ∧
    HasDerivAt (fun t => out_max_wingfuel_mass t design_gross_mass fuel_wing_volume_geometric_max
      operating_mass) (J_max_wingfuel_mass__fuel_density fuel_density design_gross_mass
      fuel_wing_volume_geometric_max operating_mass) fuel_density ∧
    HasDerivAt (fun t => out_max_wingfuel_mass fuel_density t fuel_wing_volume_geometric_max
      operating_mass) (J_max_wingfuel_mass__design_gross_mass fuel_density design_gross_mass
      fuel_wing_volume_geometric_max operating_mass) design_gross_mass ∧
    HasDerivAt (fun t => out_max_wingfuel_mass fuel_density design_gross_mass t operating_mass)
      (J_max_wingfuel_mass__fuel_wing_volume_geometric_max fuel_density design_gross_mass
      fuel_wing_volume_geometric_max operating_mass) fuel_wing_volume_geometric_max ∧
    HasDerivAt (fun t => out_max_wingfuel_mass fuel_density design_gross_mass
      fuel_wing_volume_geometric_max t) (J_max_wingfuel_mass__operating_mass fuel_density
      design_gross_mass fuel_wing_volume_geometric_max operating_mass) operating_mass ∧
    HasDerivAt (fun t => out_fuel_wing_volume_structural_max t design_gross_mass
      fuel_wing_volume_geometric_max operating_mass)
      (J_fuel_wing_volume_structural_max__fuel_density fuel_density design_gross_mass
      fuel_wing_volume_geometric_max operating_mass) fuel_density ∧
    HasDerivAt (fun t => out_fuel_wing_volume_structural_max fuel_density t
      fuel_wing_volume_geometric_max operating_mass)
      (J_fuel_wing_volume_structural_max__design_gross_mass fuel_density design_gross_mass
      fuel_wing_volume_geometric_max operating_mass) design_gross_mass ∧
    HasDerivAt (fun t => out_fuel_wing_volume_structural_max fuel_density design_gross_mass t
      operating_mass) (J_fuel_wing_volume_structural_max__fuel_wing_volume_geometric_max
      fuel_density design_gross_mass fuel_wing_volume_geometric_max operating_mass)
      fuel_wing_volume_geometric_max ∧
    HasDerivAt (fun t => out_fuel_wing_volume_structural_max fuel_density design_gross_mass
      fuel_wing_volume_geometric_max t) (J_fuel_wing_volume_structural_max__operating_mass
      fuel_density design_gross_mass fuel_wing_volume_geometric_max operating_mass) operating_mass :=
  ⟨d_oem_wingfuel_mass__design_gross_mass _ _, d_oem_wingfuel_mass__operating_mass _ _,
    d_oem_fuel_vol__fuel_density _ _ _ h0, d_oem_fuel_vol__design_gross_mass _ _ _ h0,
    d_oem_fuel_vol__operating_mass _ _ _ h0, d_fuel_wing_volume_design__fuel_density _ _ _ h0,
    d_fuel_wing_volume_design__fuel_mass_required _ _ _ h0,
    d_fuel_wing_volume_design__fuel_volume_margin _ _ _ h0,
    d_payload_mass_max_fuel__design_gross_mass _ _ _ _, d_payload_mass_max_fuel__operating_mass _
    _ _ _, d_payload_mass_max_fuel__fuel_max_capacity_mass _ _ _ _,
    d_payload_mass_max_fuel__fuel_unusable_fuel_mass _ _ _ _, d_volume_wingfuel_mass__fuel_density
    _ _, d_volume_wingfuel_mass__fuel_wing_volume_geometric_max _ _,
    d_max_wingfuel_mass__fuel_density _ _ _ _ h1, d_max_wingfuel_mass__design_gross_mass _ _ _ _
    h1, d_max_wingfuel_mass__fuel_wing_volume_geometric_max _ _ _ _ h1,
    d_max_wingfuel_mass__operating_mass _ _ _ _ h1,
    d_fuel_wing_volume_structural_max__fuel_density _ _ _ _ h1 h0,
    d_fuel_wing_volume_structural_max__design_gross_mass _ _ _ _ h1 h0,
    d_fuel_wing_volume_structural_max__fuel_wing_volume_geometric_max _ _ _ _ h1 h0,
    d_fuel_wing_volume_structural_max__operating_mass _ _ _ _ h1 h0⟩

example : ∃ fuel_density design_gross_mass fuel_mass_required fuel_wing_volume_geometric_max
      fuel_volume_margin operating_mass fuel_max_capacity_mass fuel_unusable_fuel_mass : ℝ,
      0 < fuel_density ∧
      fuel_wing_volume_geometric_max * fuel_density ≠ design_gross_mass - operating_mass :=
  ⟨1, 1, 1, 1, 1, 1, 1, 1, by comp_example, by comp_example⟩

end Verif.Comp.MassGaspBasedFuel.FuelComponents_no_smooth

