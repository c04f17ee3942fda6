import Verif.Lemmas.CompDeriv

/-! # Partial derivatives of the components of `aviary/subsystems/mass/gasp_based/fuel.py`

One node of a vector component is modelled over the real numbers.  Each option that selects a
branch is fixed, one namespace per choice.  `out_x` is the output `x`, `J_x__y` the entry that
`compute_partials` (or `declare_partials` with `val`) assigns, `d_x__y` the proof that the entry is
the derivative.  Inputs an output does not take as argument have no influence on it.

* `FuselageMass`: entries that differ from the derivative: `fuselage_mass` by `mat` -/

set_option linter.all false

namespace Verif.Comp.MassGaspBasedFuel.FuelMass
open Real

/-- Output `fuel_mass` of `FuelMass.compute`, aviary/subsystems/mass/gasp_based/fuel.py:1303 -/
noncomputable def out_fuel_mass (fuel_fuel_system_mass design_gross_mass operating_mass payload_mass_des fuel_fuel_system_mass_scaler fuel_fuel_system_mass_coefficient fuel_density fuel_volume_margin : ℝ) : ℝ :=
  (((design_gross_mass - operating_mass) + fuel_fuel_system_mass) - payload_mass_des) / (1 +
    ((((fuel_fuel_system_mass_scaler * fuel_fuel_system_mass_coefficient) * (1 +
    (fuel_volume_margin / 100))) * (6687 / 1000)) / fuel_density))

/-- Output `fuel_mass_required` of `FuelMass.compute`, aviary/subsystems/mass/gasp_based/fuel.py:1308 -/
noncomputable def out_fuel_mass_required (design_gross_mass operating_mass payload_mass_des : ℝ) : ℝ :=
  (design_gross_mass - operating_mass) - payload_mass_des

/-- Output `fuel_mass_min` of `FuelMass.compute`, aviary/subsystems/mass/gasp_based/fuel.py:1309 -/
noncomputable def out_fuel_mass_min (design_gross_mass operating_mass payload_mass_max : ℝ) : ℝ :=
  (design_gross_mass - operating_mass) - payload_mass_max

/-- Partial of `fuel_mass_required` with respect to `design_gross_mass` as set by `FuelMass`, aviary/subsystems/mass/gasp_based/fuel.py:1272 -/
noncomputable def J_fuel_mass_required__design_gross_mass : ℝ := 1

/-- Partial of `fuel_mass_required` with respect to `operating_mass` as set by `FuelMass`, aviary/subsystems/mass/gasp_based/fuel.py:1273 -/
noncomputable def J_fuel_mass_required__operating_mass : ℝ := -1

/-- Partial of `fuel_mass_required` with respect to `payload_mass_des` as set by `FuelMass`, aviary/subsystems/mass/gasp_based/fuel.py:1273 -/
noncomputable def J_fuel_mass_required__payload_mass_des : ℝ := -1

/-- Partial of `fuel_mass_min` with respect to `design_gross_mass` as set by `FuelMass`, aviary/subsystems/mass/gasp_based/fuel.py:1281 -/
noncomputable def J_fuel_mass_min__design_gross_mass : ℝ := 1

/-- Partial of `fuel_mass_min` with respect to `operating_mass` as set by `FuelMass`, aviary/subsystems/mass/gasp_based/fuel.py:1282 -/
noncomputable def J_fuel_mass_min__operating_mass : ℝ := -1

/-- Partial of `fuel_mass_min` with respect to `payload_mass_max` as set by `FuelMass`, aviary/subsystems/mass/gasp_based/fuel.py:1282 -/
noncomputable def J_fuel_mass_min__payload_mass_max : ℝ := -1

/-- Partial of `fuel_mass` with respect to `design_gross_mass` as set by `FuelMass`, aviary/subsystems/mass/gasp_based/fuel.py:1321 -/
noncomputable def J_fuel_mass__design_gross_mass (fuel_fuel_system_mass_scaler fuel_fuel_system_mass_coefficient fuel_density fuel_volume_margin : ℝ) : ℝ :=
  1 / (1 + ((((fuel_fuel_system_mass_scaler * fuel_fuel_system_mass_coefficient) * (1 +
    (fuel_volume_margin / 100))) * (6687 / 1000)) / fuel_density))

/-- Partial of `fuel_mass` with respect to `operating_mass` as set by `FuelMass`, aviary/subsystems/mass/gasp_based/fuel.py:1324 -/
noncomputable def J_fuel_mass__operating_mass (fuel_fuel_system_mass_scaler fuel_fuel_system_mass_coefficient fuel_density fuel_volume_margin : ℝ) : ℝ :=
  (-1) / (1 + ((((fuel_fuel_system_mass_scaler * fuel_fuel_system_mass_coefficient) * (1 +
    (fuel_volume_margin / 100))) * (6687 / 1000)) / fuel_density))

/-- Partial of `fuel_mass` with respect to `payload_mass_des` as set by `FuelMass`, aviary/subsystems/mass/gasp_based/fuel.py:1327 -/
noncomputable def J_fuel_mass__payload_mass_des (fuel_fuel_system_mass_scaler fuel_fuel_system_mass_coefficient fuel_density fuel_volume_margin : ℝ) : ℝ :=
  (-1) / (1 + ((((fuel_fuel_system_mass_scaler * fuel_fuel_system_mass_coefficient) * (1 +
    (fuel_volume_margin / 100))) * (6687 / 1000)) / fuel_density))

/-- Partial of `fuel_mass` with respect to `fuel_fuel_system_mass` as set by `FuelMass`, aviary/subsystems/mass/gasp_based/fuel.py:1330 -/
noncomputable def J_fuel_mass__fuel_fuel_system_mass (fuel_fuel_system_mass_scaler fuel_fuel_system_mass_coefficient fuel_density fuel_volume_margin : ℝ) : ℝ :=
  1 / (1 + ((((fuel_fuel_system_mass_scaler * fuel_fuel_system_mass_coefficient) * (1 +
    (fuel_volume_margin / 100))) * (6687 / 1000)) / fuel_density))

/-- Partial of `fuel_mass` with respect to `fuel_fuel_system_mass_scaler` as set by `FuelMass`, aviary/subsystems/mass/gasp_based/fuel.py:1333 -/
noncomputable def J_fuel_mass__fuel_fuel_system_mass_scaler (fuel_fuel_system_mass design_gross_mass operating_mass payload_mass_des fuel_fuel_system_mass_scaler fuel_fuel_system_mass_coefficient fuel_density fuel_volume_margin : ℝ) : ℝ :=
  (((((-(((design_gross_mass - operating_mass) + fuel_fuel_system_mass) - payload_mass_des)) /
    ((1 + ((((fuel_fuel_system_mass_scaler * fuel_fuel_system_mass_coefficient) * (1 +
    (fuel_volume_margin / 100))) * (6687 / 1000)) / fuel_density)) ^ 2)) *
    fuel_fuel_system_mass_coefficient) * (1 + (fuel_volume_margin / 100))) * (6687 / 1000)) /
    fuel_density

/-- Partial of `fuel_mass` with respect to `fuel_fuel_system_mass_coefficient` as set by `FuelMass`, aviary/subsystems/mass/gasp_based/fuel.py:1342 -/
noncomputable def J_fuel_mass__fuel_fuel_system_mass_coefficient (fuel_fuel_system_mass design_gross_mass operating_mass payload_mass_des fuel_fuel_system_mass_scaler fuel_fuel_system_mass_coefficient fuel_density fuel_volume_margin : ℝ) : ℝ :=
  (((((-(((design_gross_mass - operating_mass) + fuel_fuel_system_mass) - payload_mass_des)) /
    ((1 + ((((fuel_fuel_system_mass_scaler * fuel_fuel_system_mass_coefficient) * (1 +
    (fuel_volume_margin / 100))) * (6687 / 1000)) / fuel_density)) ^ 2)) *
    fuel_fuel_system_mass_scaler) * (1 + (fuel_volume_margin / 100))) * (6687 / 1000)) /
    fuel_density

/-- Partial of `fuel_mass` with respect to `fuel_density` as set by `FuelMass`, aviary/subsystems/mass/gasp_based/fuel.py:1351 -/
noncomputable def J_fuel_mass__fuel_density (fuel_fuel_system_mass design_gross_mass operating_mass payload_mass_des fuel_fuel_system_mass_scaler fuel_fuel_system_mass_coefficient fuel_density fuel_volume_margin : ℝ) : ℝ :=
  ((-(((design_gross_mass - operating_mass) + fuel_fuel_system_mass) - payload_mass_des)) / ((1
    + ((((fuel_fuel_system_mass_scaler * fuel_fuel_system_mass_coefficient) * (1 +
    (fuel_volume_margin / 100))) * (6687 / 1000)) / fuel_density)) ^ 2)) *
    (((((-fuel_fuel_system_mass_scaler) * fuel_fuel_system_mass_coefficient) * (1 +
    (fuel_volume_margin / 100))) * (6687 / 1000)) / (fuel_density ^ 2))

/-- Partial of `fuel_mass` with respect to `fuel_volume_margin` as set by `FuelMass`, aviary/subsystems/mass/gasp_based/fuel.py:1356 -/
noncomputable def J_fuel_mass__fuel_volume_margin (fuel_fuel_system_mass design_gross_mass operating_mass payload_mass_des fuel_fuel_system_mass_scaler fuel_fuel_system_mass_coefficient fuel_density fuel_volume_margin : ℝ) : ℝ :=
  ((((((-(((design_gross_mass - operating_mass) + fuel_fuel_system_mass) - payload_mass_des)) /
    ((1 + ((((fuel_fuel_system_mass_scaler * fuel_fuel_system_mass_coefficient) * (1 +
    (fuel_volume_margin / 100))) * (6687 / 1000)) / fuel_density)) ^ 2)) *
    fuel_fuel_system_mass_scaler) * fuel_fuel_system_mass_coefficient) * (1 / 100)) * (6687 /
    1000)) / fuel_density

theorem d_fuel_mass__fuel_fuel_system_mass (fuel_fuel_system_mass design_gross_mass operating_mass
    payload_mass_des fuel_fuel_system_mass_scaler fuel_fuel_system_mass_coefficient fuel_density
    fuel_volume_margin : ℝ) (h0 : 0 < fuel_density) (h1 : 0 < fuel_fuel_system_mass_scaler) (h2 :
    0 < fuel_fuel_system_mass_coefficient) (h3 : 0 < fuel_volume_margin) :
    HasDerivAt (fun t => out_fuel_mass t design_gross_mass operating_mass payload_mass_des fuel_fuel_system_mass_scaler fuel_fuel_system_mass_coefficient fuel_density fuel_volume_margin) (J_fuel_mass__fuel_fuel_system_mass fuel_fuel_system_mass_scaler fuel_fuel_system_mass_coefficient fuel_density fuel_volume_margin) fuel_fuel_system_mass := by
  simp only [out_fuel_mass, J_fuel_mass__fuel_fuel_system_mass]
  (apply hasDerivAt_of_eq; on_goal 1 => (repeat' comp_step))
  all_goals try comp_side
  all_goals try simp only [mul_zero, zero_mul, add_zero, zero_add, sub_zero, zero_sub, mul_one, one_mul]
  all_goals try push_cast
  all_goals comp_eq

theorem d_fuel_mass__design_gross_mass (fuel_fuel_system_mass design_gross_mass operating_mass
    payload_mass_des fuel_fuel_system_mass_scaler fuel_fuel_system_mass_coefficient fuel_density
    fuel_volume_margin : ℝ) (h0 : 0 < fuel_density) (h1 : 0 < fuel_fuel_system_mass_scaler) (h2 :
    0 < fuel_fuel_system_mass_coefficient) (h3 : 0 < fuel_volume_margin) :
    HasDerivAt (fun t => out_fuel_mass fuel_fuel_system_mass t operating_mass payload_mass_des fuel_fuel_system_mass_scaler fuel_fuel_system_mass_coefficient fuel_density fuel_volume_margin) (J_fuel_mass__design_gross_mass fuel_fuel_system_mass_scaler fuel_fuel_system_mass_coefficient fuel_density fuel_volume_margin) design_gross_mass := by
  simp only [out_fuel_mass, J_fuel_mass__design_gross_mass]
  (apply hasDerivAt_of_eq; on_goal 1 => (repeat' comp_step))
  all_goals try comp_side
  all_goals try simp only [mul_zero, zero_mul, add_zero, zero_add, sub_zero, zero_sub, mul_one, one_mul]
  all_goals try push_cast
  all_goals comp_eq

theorem d_fuel_mass__operating_mass (fuel_fuel_system_mass design_gross_mass operating_mass
    payload_mass_des fuel_fuel_system_mass_scaler fuel_fuel_system_mass_coefficient fuel_density
    fuel_volume_margin : ℝ) (h0 : 0 < fuel_density) (h1 : 0 < fuel_fuel_system_mass_scaler) (h2 :
    0 < fuel_fuel_system_mass_coefficient) (h3 : 0 < fuel_volume_margin) :
    HasDerivAt (fun t => out_fuel_mass fuel_fuel_system_mass design_gross_mass t payload_mass_des fuel_fuel_system_mass_scaler fuel_fuel_system_mass_coefficient fuel_density fuel_volume_margin) (J_fuel_mass__operating_mass fuel_fuel_system_mass_scaler fuel_fuel_system_mass_coefficient fuel_density fuel_volume_margin) operating_mass := by
  simp only [out_fuel_mass, J_fuel_mass__operating_mass]
  (apply hasDerivAt_of_eq; on_goal 1 => (repeat' comp_step))
  all_goals try comp_side
  all_goals try simp only [mul_zero, zero_mul, add_zero, zero_add, sub_zero, zero_sub, mul_one, one_mul]
  all_goals try push_cast
  all_goals comp_eq

theorem d_fuel_mass__payload_mass_des (fuel_fuel_system_mass design_gross_mass operating_mass
    payload_mass_des fuel_fuel_system_mass_scaler fuel_fuel_system_mass_coefficient fuel_density
    fuel_volume_margin : ℝ) (h0 : 0 < fuel_density) (h1 : 0 < fuel_fuel_system_mass_scaler) (h2 :
    0 < fuel_fuel_system_mass_coefficient) (h3 : 0 < fuel_volume_margin) :
    HasDerivAt (fun t => out_fuel_mass fuel_fuel_system_mass design_gross_mass operating_mass t fuel_fuel_system_mass_scaler fuel_fuel_system_mass_coefficient fuel_density fuel_volume_margin) (J_fuel_mass__payload_mass_des fuel_fuel_system_mass_scaler fuel_fuel_system_mass_coefficient fuel_density fuel_volume_margin) payload_mass_des := by
  simp only [out_fuel_mass, J_fuel_mass__payload_mass_des]
  (apply hasDerivAt_of_eq; on_goal 1 => (repeat' comp_step))
  all_goals try comp_side
  all_goals try simp only [mul_zero, zero_mul, add_zero, zero_add, sub_zero, zero_sub, mul_one, one_mul]
  all_goals try push_cast
  all_goals comp_eq

theorem d_fuel_mass__fuel_fuel_system_mass_scaler (fuel_fuel_system_mass design_gross_mass
    operating_mass payload_mass_des fuel_fuel_system_mass_scaler fuel_fuel_system_mass_coefficient
    fuel_density fuel_volume_margin : ℝ) (h0 : 0 < fuel_density) (h1 : 0 <
    fuel_fuel_system_mass_scaler) (h2 : 0 < fuel_fuel_system_mass_coefficient) (h3 : 0 <
    fuel_volume_margin) :
    HasDerivAt (fun t => out_fuel_mass fuel_fuel_system_mass design_gross_mass operating_mass payload_mass_des t fuel_fuel_system_mass_coefficient fuel_density fuel_volume_margin) (J_fuel_mass__fuel_fuel_system_mass_scaler fuel_fuel_system_mass design_gross_mass operating_mass payload_mass_des fuel_fuel_system_mass_scaler fuel_fuel_system_mass_coefficient fuel_density fuel_volume_margin) fuel_fuel_system_mass_scaler := by
  simp only [out_fuel_mass, J_fuel_mass__fuel_fuel_system_mass_scaler]
  (apply hasDerivAt_of_eq; on_goal 1 => (repeat' comp_step))
  all_goals try comp_side
  all_goals try simp only [mul_zero, zero_mul, add_zero, zero_add, sub_zero, zero_sub, mul_one, one_mul]
  all_goals try push_cast
  all_goals comp_eq

theorem d_fuel_mass__fuel_fuel_system_mass_coefficient (fuel_fuel_system_mass design_gross_mass
    operating_mass payload_mass_des fuel_fuel_system_mass_scaler fuel_fuel_system_mass_coefficient
    fuel_density fuel_volume_margin : ℝ) (h0 : 0 < fuel_density) (h1 : 0 <
    fuel_fuel_system_mass_scaler) (h2 : 0 < fuel_fuel_system_mass_coefficient) (h3 : 0 <
    fuel_volume_margin) :
    HasDerivAt (fun t => out_fuel_mass fuel_fuel_system_mass design_gross_mass operating_mass payload_mass_des fuel_fuel_system_mass_scaler t fuel_density fuel_volume_margin) (J_fuel_mass__fuel_fuel_system_mass_coefficient fuel_fuel_system_mass design_gross_mass operating_mass payload_mass_des fuel_fuel_system_mass_scaler fuel_fuel_system_mass_coefficient fuel_density fuel_volume_margin) fuel_fuel_system_mass_coefficient := by
  simp only [out_fuel_mass, J_fuel_mass__fuel_fuel_system_mass_coefficient]
  (apply hasDerivAt_of_eq; on_goal 1 => (repeat' comp_step))
  all_goals try comp_side
  all_goals try simp only [mul_zero, zero_mul, add_zero, zero_add, sub_zero, zero_sub, mul_one, one_mul]
  all_goals try push_cast
  all_goals comp_eq

theorem d_fuel_mass__fuel_density (fuel_fuel_system_mass design_gross_mass operating_mass
    payload_mass_des fuel_fuel_system_mass_scaler fuel_fuel_system_mass_coefficient fuel_density
    fuel_volume_margin : ℝ) (h0 : 0 < fuel_density) (h1 : 0 < fuel_fuel_system_mass_scaler) (h2 :
    0 < fuel_fuel_system_mass_coefficient) (h3 : 0 < fuel_volume_margin) :
    HasDerivAt (fun t => out_fuel_mass fuel_fuel_system_mass design_gross_mass operating_mass payload_mass_des fuel_fuel_system_mass_scaler fuel_fuel_system_mass_coefficient t fuel_volume_margin) (J_fuel_mass__fuel_density fuel_fuel_system_mass design_gross_mass operating_mass payload_mass_des fuel_fuel_system_mass_scaler fuel_fuel_system_mass_coefficient fuel_density fuel_volume_margin) fuel_density := by
  simp only [out_fuel_mass, J_fuel_mass__fuel_density]
  (apply hasDerivAt_of_eq; on_goal 1 => (repeat' comp_step))
  all_goals try comp_side
  all_goals try simp only [mul_zero, zero_mul, add_zero, zero_add, sub_zero, zero_sub, mul_one, one_mul]
  all_goals try push_cast
  all_goals comp_eq

theorem d_fuel_mass__fuel_volume_margin (fuel_fuel_system_mass design_gross_mass operating_mass
    payload_mass_des fuel_fuel_system_mass_scaler fuel_fuel_system_mass_coefficient fuel_density
    fuel_volume_margin : ℝ) (h0 : 0 < fuel_density) (h1 : 0 < fuel_fuel_system_mass_scaler) (h2 :
    0 < fuel_fuel_system_mass_coefficient) (h3 : 0 < fuel_volume_margin) :
    HasDerivAt (fun t => out_fuel_mass fuel_fuel_system_mass design_gross_mass operating_mass payload_mass_des fuel_fuel_system_mass_scaler fuel_fuel_system_mass_coefficient fuel_density t) (J_fuel_mass__fuel_volume_margin fuel_fuel_system_mass design_gross_mass operating_mass payload_mass_des fuel_fuel_system_mass_scaler fuel_fuel_system_mass_coefficient fuel_density fuel_volume_margin) fuel_volume_margin := by
  simp only [out_fuel_mass, J_fuel_mass__fuel_volume_margin]
  (apply hasDerivAt_of_eq; on_goal 1 => (repeat' comp_step))
  all_goals try comp_side
  all_goals try simp only [mul_zero, zero_mul, add_zero, zero_add, sub_zero, zero_sub, mul_one, one_mul]
  all_goals try push_cast
  all_goals comp_eq

theorem d_fuel_mass_required__design_gross_mass (design_gross_mass operating_mass payload_mass_des
    : ℝ)  :
    HasDerivAt (fun t => out_fuel_mass_required t operating_mass payload_mass_des) (J_fuel_mass_required__design_gross_mass) design_gross_mass := by
  simp only [out_fuel_mass_required, J_fuel_mass_required__design_gross_mass]
  (apply hasDerivAt_of_eq; on_goal 1 => (repeat' comp_step))
  all_goals try comp_side
  all_goals try simp only [mul_zero, zero_mul, add_zero, zero_add, sub_zero, zero_sub, mul_one, one_mul]
  all_goals try push_cast
  all_goals comp_eq

theorem d_fuel_mass_required__operating_mass (design_gross_mass operating_mass payload_mass_des :
    ℝ)  :
    HasDerivAt (fun t => out_fuel_mass_required design_gross_mass t payload_mass_des) (J_fuel_mass_required__operating_mass) operating_mass := by
  simp only [out_fuel_mass_required, J_fuel_mass_required__operating_mass]
  (apply hasDerivAt_of_eq; on_goal 1 => (repeat' comp_step))
  all_goals try comp_side
  all_goals try simp only [mul_zero, zero_mul, add_zero, zero_add, sub_zero, zero_sub, mul_one, one_mul]
  all_goals try push_cast
  all_goals comp_eq

theorem d_fuel_mass_required__payload_mass_des (design_gross_mass operating_mass payload_mass_des
    : ℝ)  :
    HasDerivAt (fun t => out_fuel_mass_required design_gross_mass operating_mass t) (J_fuel_mass_required__payload_mass_des) payload_mass_des := by
  simp only [out_fuel_mass_required, J_fuel_mass_required__payload_mass_des]
  (apply hasDerivAt_of_eq; on_goal 1 => (repeat' comp_step))
  all_goals try comp_side
  all_goals try simp only [mul_zero, zero_mul, add_zero, zero_add, sub_zero, zero_sub, mul_one, one_mul]
  all_goals try push_cast
  all_goals comp_eq

theorem d_fuel_mass_min__design_gross_mass (design_gross_mass operating_mass payload_mass_max : ℝ)
    :
    HasDerivAt (fun t => out_fuel_mass_min t operating_mass payload_mass_max) (J_fuel_mass_min__design_gross_mass) design_gross_mass := by
  simp only [out_fuel_mass_min, J_fuel_mass_min__design_gross_mass]
  (apply hasDerivAt_of_eq; on_goal 1 => (repeat' comp_step))
  all_goals try comp_side
  all_goals try simp only [mul_zero, zero_mul, add_zero, zero_add, sub_zero, zero_sub, mul_one, one_mul]
  all_goals try push_cast
  all_goals comp_eq

theorem d_fuel_mass_min__operating_mass (design_gross_mass operating_mass payload_mass_max : ℝ)  :
    HasDerivAt (fun t => out_fuel_mass_min design_gross_mass t payload_mass_max) (J_fuel_mass_min__operating_mass) operating_mass := by
  simp only [out_fuel_mass_min, J_fuel_mass_min__operating_mass]
  (apply hasDerivAt_of_eq; on_goal 1 => (repeat' comp_step))
  all_goals try comp_side
  all_goals try simp only [mul_zero, zero_mul, add_zero, zero_add, sub_zero, zero_sub, mul_one, one_mul]
  all_goals try push_cast
  all_goals comp_eq

theorem d_fuel_mass_min__payload_mass_max (design_gross_mass operating_mass payload_mass_max : ℝ)
    :
    HasDerivAt (fun t => out_fuel_mass_min design_gross_mass operating_mass t) (J_fuel_mass_min__payload_mass_max) payload_mass_max := by
  simp only [out_fuel_mass_min, J_fuel_mass_min__payload_mass_max]
  (apply hasDerivAt_of_eq; on_goal 1 => (repeat' comp_step))
  all_goals try comp_side
  all_goals try simp only [mul_zero, zero_mul, add_zero, zero_add, sub_zero, zero_sub, mul_one, one_mul]
  all_goals try push_cast
  all_goals comp_eq

/-- Every partial derivative set by `FuelMass` is the derivative of its output. -/
theorem partials (fuel_fuel_system_mass design_gross_mass operating_mass payload_mass_des
    fuel_fuel_system_mass_scaler fuel_fuel_system_mass_coefficient fuel_density payload_mass_max
    fuel_volume_margin : ℝ) (h0 : 0 < fuel_density) (h1 : 0 < fuel_fuel_system_mass_scaler) (h2 :
    0 < fuel_fuel_system_mass_coefficient) (h3 : 0 < fuel_volume_margin) :
    HasDerivAt (fun t => out_fuel_mass t design_gross_mass operating_mass payload_mass_des
      fuel_fuel_system_mass_scaler fuel_fuel_system_mass_coefficient fuel_density
      fuel_volume_margin) (J_fuel_mass__fuel_fuel_system_mass fuel_fuel_system_mass_scaler
      fuel_fuel_system_mass_coefficient fuel_density fuel_volume_margin) fuel_fuel_system_mass ∧
    HasDerivAt (fun t => out_fuel_mass fuel_fuel_system_mass t operating_mass payload_mass_des
      fuel_fuel_system_mass_scaler fuel_fuel_system_mass_coefficient fuel_density
      fuel_volume_margin) (J_fuel_mass__design_gross_mass fuel_fuel_system_mass_scaler
      fuel_fuel_system_mass_coefficient fuel_density fuel_volume_margin) design_gross_mass ∧
    HasDerivAt (fun t => out_fuel_mass fuel_fuel_system_mass design_gross_mass t payload_mass_des
      fuel_fuel_system_mass_scaler fuel_fuel_system_mass_coefficient fuel_density
      fuel_volume_margin) (J_fuel_mass__operating_mass fuel_fuel_system_mass_scaler
      fuel_fuel_system_mass_coefficient fuel_density fuel_volume_margin) operating_mass ∧
    HasDerivAt (fun t => out_fuel_mass fuel_fuel_system_mass design_gross_mass operating_mass t
      fuel_fuel_system_mass_scaler fuel_fuel_system_mass_coefficient fuel_density
      fuel_volume_margin) (J_fuel_mass__payload_mass_des fuel_fuel_system_mass_scaler
      fuel_fuel_system_mass_coefficient fuel_density fuel_volume_margin) payload_mass_des ∧
    HasDerivAt (fun t => out_fuel_mass fuel_fuel_system_mass design_gross_mass operating_mass
      payload_mass_des t fuel_fuel_system_mass_coefficient fuel_density fuel_volume_margin)
      (J_fuel_mass__fuel_fuel_system_mass_scaler fuel_fuel_system_mass design_gross_mass
      operating_mass payload_mass_des fuel_fuel_system_mass_scaler
      fuel_fuel_system_mass_coefficient fuel_density fuel_volume_margin)
      fuel_fuel_system_mass_scaler ∧
    HasDerivAt (fun t => out_fuel_mass fuel_fuel_system_mass design_gross_mass operating_mass
      payload_mass_des fuel_fuel_system_mass_scaler t fuel_density fuel_volume_margin)
      (J_fuel_mass__fuel_fuel_system_mass_coefficient fuel_fuel_system_mass design_gross_mass
      operating_mass payload_mass_des fuel_fuel_system_mass_scaler
      fuel_fuel_system_mass_coefficient fuel_density fuel_volume_margin)
      fuel_fuel_system_mass_coefficient ∧
    HasDerivAt (fun t => out_fuel_mass fuel_fuel_system_mass design_gross_mass operating_mass
      payload_mass_des fuel_fuel_system_mass_scaler fuel_fuel_system_mass_coefficient t
      fuel_volume_margin) (J_fuel_mass__fuel_density fuel_fuel_system_mass design_gross_mass
      operating_mass payload_mass_des fuel_fuel_system_mass_scaler
      fuel_fuel_system_mass_coefficient fuel_density fuel_volume_margin) fuel_density ∧
    HasDerivAt (fun t => out_fuel_mass fuel_fuel_system_mass design_gross_mass operating_mass
      payload_mass_des fuel_fuel_system_mass_scaler fuel_fuel_system_mass_coefficient fuel_density
      t) (J_fuel_mass__fuel_volume_margin fuel_fuel_system_mass design_gross_mass operating_mass
      payload_mass_des fuel_fuel_system_mass_scaler fuel_fuel_system_mass_coefficient fuel_density
      fuel_volume_margin) fuel_volume_margin ∧
    HasDerivAt (fun t => out_fuel_mass_required t operating_mass payload_mass_des)
      (J_fuel_mass_required__design_gross_mass) design_gross_mass ∧
    HasDerivAt (fun t => out_fuel_mass_required design_gross_mass t payload_mass_des)
      (J_fuel_mass_required__operating_mass) operating_mass ∧
    HasDerivAt (fun t => out_fuel_mass_required design_gross_mass operating_mass t)
      (J_fuel_mass_required__payload_mass_des) payload_mass_des ∧
    HasDerivAt (fun t => out_fuel_mass_min t operating_mass payload_mass_max)
      (J_fuel_mass_min__design_gross_mass) design_gross_mass ∧
    HasDerivAt (fun t => out_fuel_mass_min design_gross_mass t payload_mass_max)
      (J_fuel_mass_min__operating_mass) operating_mass ∧
    HasDerivAt (fun t => out_fuel_mass_min design_gross_mass operating_mass t)
      (J_fuel_mass_min__payload_mass_max) payload_mass_max :=
  ⟨d_fuel_mass__fuel_fuel_system_mass _ _ _ _ _ _ _ _ h0 h1 h2 h3, d_fuel_mass__design_gross_mass
    _ _ _ _ _ _ _ _ h0 h1 h2 h3, d_fuel_mass__operating_mass _ _ _ _ _ _ _ _ h0 h1 h2 h3,
    d_fuel_mass__payload_mass_des _ _ _ _ _ _ _ _ h0 h1 h2 h3,
    d_fuel_mass__fuel_fuel_system_mass_scaler _ _ _ _ _ _ _ _ h0 h1 h2 h3,
    d_fuel_mass__fuel_fuel_system_mass_coefficient _ _ _ _ _ _ _ _ h0 h1 h2 h3,
    d_fuel_mass__fuel_density _ _ _ _ _ _ _ _ h0 h1 h2 h3, d_fuel_mass__fuel_volume_margin _ _ _ _
    _ _ _ _ h0 h1 h2 h3, d_fuel_mass_required__design_gross_mass _ _ _,
    d_fuel_mass_required__operating_mass _ _ _, d_fuel_mass_required__payload_mass_des _ _ _,
    d_fuel_mass_min__design_gross_mass _ _ _, d_fuel_mass_min__operating_mass _ _ _,
    d_fuel_mass_min__payload_mass_max _ _ _⟩

example : ∃ fuel_fuel_system_mass design_gross_mass operating_mass payload_mass_des
      fuel_fuel_system_mass_scaler fuel_fuel_system_mass_coefficient fuel_density payload_mass_max
      fuel_volume_margin : ℝ,
      0 < fuel_density ∧
      0 < fuel_fuel_system_mass_scaler ∧
      0 < fuel_fuel_system_mass_coefficient ∧
      0 < fuel_volume_margin :=
  ⟨0, 0, 0, 0, 1, 1, 1, 0, 1, by comp_example, by comp_example, by comp_example, by comp_example⟩

end Verif.Comp.MassGaspBasedFuel.FuelMass

namespace Verif.Comp.MassGaspBasedFuel.FuelSysAndFullFuselageMass
open Real

/-- Output `fuel_fuel_system_mass` of `FuelSysAndFullFuselageMass.compute`, aviary/subsystems/mass/gasp_based/fuel.py:840 -/
noncomputable def out_fuel_fuel_system_mass (fuel_fuel_system_mass_scaler fuel_fuel_system_mass_coefficient fuel_density fuel_mass fuel_volume_margin : ℝ) : ℝ :=
  (((fuel_fuel_system_mass_scaler * ((6687 / 1000) / fuel_density)) *
    fuel_fuel_system_mass_coefficient) * fuel_mass) * (1 + (fuel_volume_margin / 100))

/-- Output `fus_mass_full` of `FuelSysAndFullFuselageMass.compute`, aviary/subsystems/mass/gasp_based/fuel.py:848 -/
noncomputable def out_fus_mass_full (design_gross_mass wing_mass wing_mounted_mass wingfuel_mass_min : ℝ) : ℝ :=
  ((design_gross_mass - wing_mass) - wingfuel_mass_min) - wing_mounted_mass

/-- Partial of `fuel_fuel_system_mass` with respect to `fuel_fuel_system_mass_scaler` as set by `FuelSysAndFullFuselageMass`, aviary/subsystems/mass/gasp_based/fuel.py:859 -/
noncomputable def J_fuel_fuel_system_mass__fuel_fuel_system_mass_scaler (fuel_fuel_system_mass_coefficient fuel_density fuel_mass fuel_volume_margin : ℝ) : ℝ :=
  ((((6687 / 1000) / fuel_density) * fuel_fuel_system_mass_coefficient) * fuel_mass) * (1 +
    (fuel_volume_margin / 100))

/-- Partial of `fuel_fuel_system_mass` with respect to `fuel_density` as set by `FuelSysAndFullFuselageMass`, aviary/subsystems/mass/gasp_based/fuel.py:866 -/
noncomputable def J_fuel_fuel_system_mass__fuel_density (fuel_fuel_system_mass_scaler fuel_fuel_system_mass_coefficient fuel_density fuel_mass fuel_volume_margin : ℝ) : ℝ :=
  ((((-fuel_fuel_system_mass_scaler) * ((6687 / 1000) / (fuel_density ^ 2))) *
    fuel_fuel_system_mass_coefficient) * fuel_mass) * (1 + (fuel_volume_margin / 100))

/-- Partial of `fuel_fuel_system_mass` with respect to `fuel_fuel_system_mass_coefficient` as set by `FuelSysAndFullFuselageMass`, aviary/subsystems/mass/gasp_based/fuel.py:873 -/
noncomputable def J_fuel_fuel_system_mass__fuel_fuel_system_mass_coefficient (fuel_fuel_system_mass_scaler fuel_density fuel_mass fuel_volume_margin : ℝ) : ℝ :=
  ((fuel_fuel_system_mass_scaler * ((6687 / 1000) / fuel_density)) * fuel_mass) * (1 +
    (fuel_volume_margin / 100))

/-- Partial of `fuel_fuel_system_mass` with respect to `fuel_mass` as set by `FuelSysAndFullFuselageMass`, aviary/subsystems/mass/gasp_based/fuel.py:876 -/
noncomputable def J_fuel_fuel_system_mass__fuel_mass (fuel_fuel_system_mass_scaler fuel_fuel_system_mass_coefficient fuel_density fuel_volume_margin : ℝ) : ℝ :=
  ((fuel_fuel_system_mass_scaler * ((6687 / 1000) / fuel_density)) *
    fuel_fuel_system_mass_coefficient) * (1 + (fuel_volume_margin / 100))

/-- Partial of `fuel_fuel_system_mass` with respect to `fuel_volume_margin` as set by `FuelSysAndFullFuselageMass`, aviary/subsystems/mass/gasp_based/fuel.py:879 -/
noncomputable def J_fuel_fuel_system_mass__fuel_volume_margin (fuel_fuel_system_mass_scaler fuel_fuel_system_mass_coefficient fuel_density fuel_mass : ℝ) : ℝ :=
  (((fuel_fuel_system_mass_scaler * ((6687 / 1000) / fuel_density)) *
    fuel_fuel_system_mass_coefficient) * fuel_mass) * (1 / 100)

/-- Partial of `fus_mass_full` with respect to `design_gross_mass` as set by `FuelSysAndFullFuselageMass`, aviary/subsystems/mass/gasp_based/fuel.py:888 -/
noncomputable def J_fus_mass_full__design_gross_mass : ℝ := 1

/-- Partial of `fus_mass_full` with respect to `wing_mass` as set by `FuelSysAndFullFuselageMass`, aviary/subsystems/mass/gasp_based/fuel.py:889 -/
noncomputable def J_fus_mass_full__wing_mass : ℝ := -1

/-- Partial of `fus_mass_full` with respect to `wingfuel_mass_min` as set by `FuelSysAndFullFuselageMass`, aviary/subsystems/mass/gasp_based/fuel.py:890 -/
noncomputable def J_fus_mass_full__wingfuel_mass_min : ℝ := -1

/-- Partial of `fus_mass_full` with respect to `wing_mounted_mass` as set by `FuelSysAndFullFuselageMass`, aviary/subsystems/mass/gasp_based/fuel.py:891 -/
noncomputable def J_fus_mass_full__wing_mounted_mass : ℝ := -1

theorem d_fuel_fuel_system_mass__fuel_fuel_system_mass_scaler (fuel_fuel_system_mass_scaler
    fuel_fuel_system_mass_coefficient fuel_density fuel_mass fuel_volume_margin : ℝ) (h0 : 0 <
    fuel_density) :
    HasDerivAt (fun t => out_fuel_fuel_system_mass t fuel_fuel_system_mass_coefficient fuel_density fuel_mass fuel_volume_margin) (J_fuel_fuel_system_mass__fuel_fuel_system_mass_scaler fuel_fuel_system_mass_coefficient fuel_density fuel_mass fuel_volume_margin) fuel_fuel_system_mass_scaler := by
  simp only [out_fuel_fuel_system_mass, J_fuel_fuel_system_mass__fuel_fuel_system_mass_scaler]
  (apply hasDerivAt_of_eq; on_goal 1 => (repeat' comp_step))
  all_goals try comp_side
  all_goals try simp only [mul_zero, zero_mul, add_zero, zero_add, sub_zero, zero_sub, mul_one, one_mul]
  all_goals try push_cast
  all_goals comp_eq

theorem d_fuel_fuel_system_mass__fuel_fuel_system_mass_coefficient (fuel_fuel_system_mass_scaler
    fuel_fuel_system_mass_coefficient fuel_density fuel_mass fuel_volume_margin : ℝ) (h0 : 0 <
    fuel_density) :
    HasDerivAt (fun t => out_fuel_fuel_system_mass fuel_fuel_system_mass_scaler t fuel_density fuel_mass fuel_volume_margin) (J_fuel_fuel_system_mass__fuel_fuel_system_mass_coefficient fuel_fuel_system_mass_scaler fuel_density fuel_mass fuel_volume_margin) fuel_fuel_system_mass_coefficient := by
  simp only [out_fuel_fuel_system_mass, J_fuel_fuel_system_mass__fuel_fuel_system_mass_coefficient]
  (apply hasDerivAt_of_eq; on_goal 1 => (repeat' comp_step))
  all_goals try comp_side
  all_goals try simp only [mul_zero, zero_mul, add_zero, zero_add, sub_zero, zero_sub, mul_one, one_mul]
  all_goals try push_cast
  all_goals comp_eq

theorem d_fuel_fuel_system_mass__fuel_density (fuel_fuel_system_mass_scaler
    fuel_fuel_system_mass_coefficient fuel_density fuel_mass fuel_volume_margin : ℝ) (h0 : 0 <
    fuel_density) :
    HasDerivAt (fun t => out_fuel_fuel_system_mass fuel_fuel_system_mass_scaler fuel_fuel_system_mass_coefficient t fuel_mass fuel_volume_margin) (J_fuel_fuel_system_mass__fuel_density fuel_fuel_system_mass_scaler fuel_fuel_system_mass_coefficient fuel_density fuel_mass fuel_volume_margin) fuel_density := by
  simp only [out_fuel_fuel_system_mass, J_fuel_fuel_system_mass__fuel_density]
  (apply hasDerivAt_of_eq; on_goal 1 => (repeat' comp_step))
  all_goals try comp_side
  all_goals try simp only [mul_zero, zero_mul, add_zero, zero_add, sub_zero, zero_sub, mul_one, one_mul]
  all_goals try push_cast
  all_goals comp_eq

theorem d_fuel_fuel_system_mass__fuel_mass (fuel_fuel_system_mass_scaler
    fuel_fuel_system_mass_coefficient fuel_density fuel_mass fuel_volume_margin : ℝ) (h0 : 0 <
    fuel_density) :
    HasDerivAt (fun t => out_fuel_fuel_system_mass fuel_fuel_system_mass_scaler fuel_fuel_system_mass_coefficient fuel_density t fuel_volume_margin) (J_fuel_fuel_system_mass__fuel_mass fuel_fuel_system_mass_scaler fuel_fuel_system_mass_coefficient fuel_density fuel_volume_margin) fuel_mass := by
  simp only [out_fuel_fuel_system_mass, J_fuel_fuel_system_mass__fuel_mass]
  (apply hasDerivAt_of_eq; on_goal 1 => (repeat' comp_step))
  all_goals try comp_side
  all_goals try simp only [mul_zero, zero_mul, add_zero, zero_add, sub_zero, zero_sub, mul_one, one_mul]
  all_goals try push_cast
  all_goals comp_eq

theorem d_fuel_fuel_system_mass__fuel_volume_margin (fuel_fuel_system_mass_scaler
    fuel_fuel_system_mass_coefficient fuel_density fuel_mass fuel_volume_margin : ℝ) (h0 : 0 <
    fuel_density) :
    HasDerivAt (fun t => out_fuel_fuel_system_mass fuel_fuel_system_mass_scaler fuel_fuel_system_mass_coefficient fuel_density fuel_mass t) (J_fuel_fuel_system_mass__fuel_volume_margin fuel_fuel_system_mass_scaler fuel_fuel_system_mass_coefficient fuel_density fuel_mass) fuel_volume_margin := by
  simp only [out_fuel_fuel_system_mass, J_fuel_fuel_system_mass__fuel_volume_margin]
  (apply hasDerivAt_of_eq; on_goal 1 => (repeat' comp_step))
  all_goals try comp_side
  all_goals try simp only [mul_zero, zero_mul, add_zero, zero_add, sub_zero, zero_sub, mul_one, one_mul]
  all_goals try push_cast
  all_goals comp_eq

theorem d_fus_mass_full__design_gross_mass (design_gross_mass wing_mass wing_mounted_mass
    wingfuel_mass_min : ℝ)  :
    HasDerivAt (fun t => out_fus_mass_full t wing_mass wing_mounted_mass wingfuel_mass_min) (J_fus_mass_full__design_gross_mass) design_gross_mass := by
  simp only [out_fus_mass_full, J_fus_mass_full__design_gross_mass]
  (apply hasDerivAt_of_eq; on_goal 1 => (repeat' comp_step))
  all_goals try comp_side
  all_goals try simp only [mul_zero, zero_mul, add_zero, zero_add, sub_zero, zero_sub, mul_one, one_mul]
  all_goals try push_cast
  all_goals comp_eq

theorem d_fus_mass_full__wing_mass (design_gross_mass wing_mass wing_mounted_mass
    wingfuel_mass_min : ℝ)  :
    HasDerivAt (fun t => out_fus_mass_full design_gross_mass t wing_mounted_mass wingfuel_mass_min) (J_fus_mass_full__wing_mass) wing_mass := by
  simp only [out_fus_mass_full, J_fus_mass_full__wing_mass]
  (apply hasDerivAt_of_eq; on_goal 1 => (repeat' comp_step))
  all_goals try comp_side
  all_goals try simp only [mul_zero, zero_mul, add_zero, zero_add, sub_zero, zero_sub, mul_one, one_mul]
  all_goals try push_cast
  all_goals comp_eq

theorem d_fus_mass_full__wing_mounted_mass (design_gross_mass wing_mass wing_mounted_mass
    wingfuel_mass_min : ℝ)  :
    HasDerivAt (fun t => out_fus_mass_full design_gross_mass wing_mass t wingfuel_mass_min) (J_fus_mass_full__wing_mounted_mass) wing_mounted_mass := by
  simp only [out_fus_mass_full, J_fus_mass_full__wing_mounted_mass]
  (apply hasDerivAt_of_eq; on_goal 1 => (repeat' comp_step))
  all_goals try comp_side
  all_goals try simp only [mul_zero, zero_mul, add_zero, zero_add, sub_zero, zero_sub, mul_one, one_mul]
  all_goals try push_cast
  all_goals comp_eq

theorem d_fus_mass_full__wingfuel_mass_min (design_gross_mass wing_mass wing_mounted_mass
    wingfuel_mass_min : ℝ)  :
    HasDerivAt (fun t => out_fus_mass_full design_gross_mass wing_mass wing_mounted_mass t) (J_fus_mass_full__wingfuel_mass_min) wingfuel_mass_min := by
  simp only [out_fus_mass_full, J_fus_mass_full__wingfuel_mass_min]
  (apply hasDerivAt_of_eq; on_goal 1 => (repeat' comp_step))
  all_goals try comp_side
  all_goals try simp only [mul_zero, zero_mul, add_zero, zero_add, sub_zero, zero_sub, mul_one, one_mul]
  all_goals try push_cast
  all_goals comp_eq

/-- Every partial derivative set by `FuelSysAndFullFuselageMass` is the derivative of its output. -/
theorem partials (design_gross_mass wing_mass wing_mounted_mass fuel_fuel_system_mass_scaler
    fuel_fuel_system_mass_coefficient fuel_density fuel_mass fuel_volume_margin wingfuel_mass_min
    : ℝ) (h0 : 0 < fuel_density) :
    HasDerivAt (fun t => out_fuel_fuel_system_mass t fuel_fuel_system_mass_coefficient fuel_density
      fuel_mass fuel_volume_margin) (J_fuel_fuel_system_mass__fuel_fuel_system_mass_scaler
      fuel_fuel_system_mass_coefficient fuel_density fuel_mass fuel_volume_margin)
      fuel_fuel_system_mass_scaler ∧
    HasDerivAt (fun t => out_fuel_fuel_system_mass fuel_fuel_system_mass_scaler t fuel_density
      fuel_mass fuel_volume_margin) (J_fuel_fuel_system_mass__fuel_fuel_system_mass_coefficient
      fuel_fuel_system_mass_scaler fuel_density fuel_mass fuel_volume_margin)
      fuel_fuel_system_mass_coefficient ∧
    HasDerivAt (fun t => out_fuel_fuel_system_mass fuel_fuel_system_mass_scaler
      fuel_fuel_system_mass_coefficient t fuel_mass fuel_volume_margin)
      (J_fuel_fuel_system_mass__fuel_density fuel_fuel_system_mass_scaler
      fuel_fuel_system_mass_coefficient fuel_density fuel_mass fuel_volume_margin) fuel_density ∧
    HasDerivAt (fun t => out_fuel_fuel_system_mass fuel_fuel_system_mass_scaler
      fuel_fuel_system_mass_coefficient fuel_density t fuel_volume_margin)
      (J_fuel_fuel_system_mass__fuel_mass fuel_fuel_system_mass_scaler
      fuel_fuel_system_mass_coefficient fuel_density fuel_volume_margin) fuel_mass ∧
    HasDerivAt (fun t => out_fuel_fuel_system_mass fuel_fuel_system_mass_scaler
      fuel_fuel_system_mass_coefficient fuel_density fuel_mass t)
      (J_fuel_fuel_system_mass__fuel_volume_margin fuel_fuel_system_mass_scaler
      fuel_fuel_system_mass_coefficient fuel_density fuel_mass) fuel_volume_margin ∧
    HasDerivAt (fun t => out_fus_mass_full t wing_mass wing_mounted_mass wingfuel_mass_min)
      (J_fus_mass_full__design_gross_mass) design_gross_mass ∧
    HasDerivAt (fun t => out_fus_mass_full design_gross_mass t wing_mounted_mass wingfuel_mass_min)
      (J_fus_mass_full__wing_mass) wing_mass ∧
    HasDerivAt (fun t => out_fus_mass_full design_gross_mass wing_mass t wingfuel_mass_min)
      (J_fus_mass_full__wing_mounted_mass) wing_mounted_mass ∧
    HasDerivAt (fun t => out_fus_mass_full design_gross_mass wing_mass wing_mounted_mass t)
      (J_fus_mass_full__wingfuel_mass_min) wingfuel_mass_min :=
  ⟨d_fuel_fuel_system_mass__fuel_fuel_system_mass_scaler _ _ _ _ _ h0,
    d_fuel_fuel_system_mass__fuel_fuel_system_mass_coefficient _ _ _ _ _ h0,
    d_fuel_fuel_system_mass__fuel_density _ _ _ _ _ h0, d_fuel_fuel_system_mass__fuel_mass _ _ _ _
    _ h0, d_fuel_fuel_system_mass__fuel_volume_margin _ _ _ _ _ h0,
    d_fus_mass_full__design_gross_mass _ _ _ _, d_fus_mass_full__wing_mass _ _ _ _,
    d_fus_mass_full__wing_mounted_mass _ _ _ _, d_fus_mass_full__wingfuel_mass_min _ _ _ _⟩

example : ∃ design_gross_mass wing_mass wing_mounted_mass fuel_fuel_system_mass_scaler
      fuel_fuel_system_mass_coefficient fuel_density fuel_mass fuel_volume_margin
      wingfuel_mass_min : ℝ,
      0 < fuel_density :=
  ⟨0, 0, 0, 0, 0, 1, 0, 0, 0, by comp_example⟩

end Verif.Comp.MassGaspBasedFuel.FuelSysAndFullFuselageMass

namespace Verif.Comp.MassGaspBasedFuel.FuselageMass
open Real

/-- aviary/subsystems/mass/gasp_based/fuel.py:956 -/
noncomputable def fus_wt (fuselage_mass_scaler fus_mass_full fuselage_mass_coefficient fuselage_wetted_area fuselage_avg_diameter tailboom_length pylon_len min_dive_vel fuselage_pressure_differential wing_ultimate_load_factor mat : ℝ) : ℝ :=
  fuselage_mass_scaler * ((fuselage_mass_coefficient * (((((((((fus_mass_full / 10000) ^ ((7 /
    10) : ℝ)) * (fuselage_wetted_area / 1000)) * fuselage_avg_diameter) * ((tailboom_length +
    pylon_len) ^ ((1 / 2) : ℝ))) * ((log min_dive_vel) / (log 10))) *
    ((fuselage_pressure_differential + 1) ^ ((1 / 5) : ℝ))) * (wing_ultimate_load_factor ^ ((3 /
    10) : ℝ))) ^ ((127 / 250) : ℝ))) + mat)

/-- aviary/subsystems/mass/gasp_based/fuel.py:1001 -/
noncomputable def x_ (fuselage_mass_scaler fus_mass_full fuselage_wetted_area fuselage_avg_diameter tailboom_length pylon_len min_dive_vel fuselage_pressure_differential wing_ultimate_load_factor : ℝ) : ℝ :=
  (fuselage_mass_scaler * (127 / 250)) * (((((((((fus_mass_full / 10000) ^ ((7 / 10) : ℝ)) *
    (fuselage_wetted_area / 1000)) * fuselage_avg_diameter) * ((tailboom_length + pylon_len) ^
    ((1 / 2) : ℝ))) * ((log min_dive_vel) / (log 10))) * ((fuselage_pressure_differential + 1) ^
    ((1 / 5) : ℝ))) * (wing_ultimate_load_factor ^ ((3 / 10) : ℝ))) ^ ((-(123 / 250)) : ℝ))

/-- aviary/subsystems/mass/gasp_based/fuel.py:1015 -/
noncomputable def dfuswt_dcfus (fuselage_mass_scaler fus_mass_full fuselage_wetted_area fuselage_avg_diameter tailboom_length pylon_len min_dive_vel fuselage_pressure_differential wing_ultimate_load_factor : ℝ) : ℝ :=
  fuselage_mass_scaler * (((((((((fus_mass_full / 10000) ^ ((7 / 10) : ℝ)) *
    (fuselage_wetted_area / 1000)) * fuselage_avg_diameter) * ((tailboom_length + pylon_len) ^
    ((1 / 2) : ℝ))) * ((log min_dive_vel) / (log 10))) * ((fuselage_pressure_differential + 1) ^
    ((1 / 5) : ℝ))) * (wing_ultimate_load_factor ^ ((3 / 10) : ℝ))) ^ ((127 / 250) : ℝ))

/-- aviary/subsystems/mass/gasp_based/fuel.py:1028 -/
noncomputable def dfuswt_dfuswtfull (fuselage_mass_scaler fus_mass_full fuselage_mass_coefficient fuselage_wetted_area fuselage_avg_diameter tailboom_length pylon_len min_dive_vel fuselage_pressure_differential wing_ultimate_load_factor : ℝ) : ℝ :=
  (((((((((fuselage_mass_coefficient * (x_ fuselage_mass_scaler fus_mass_full
    fuselage_wetted_area fuselage_avg_diameter tailboom_length pylon_len min_dive_vel
    fuselage_pressure_differential wing_ultimate_load_factor)) * (7 / 10)) * ((fus_mass_full /
    10000) ^ ((-(3 / 10)) : ℝ))) * (1 / 10000)) * (fuselage_wetted_area / 1000)) *
    fuselage_avg_diameter) * ((tailboom_length + pylon_len) ^ ((1 / 2) : ℝ))) * ((log
    min_dive_vel) / (log 10))) * ((fuselage_pressure_differential + 1) ^ ((1 / 5) : ℝ))) *
    (wing_ultimate_load_factor ^ ((3 / 10) : ℝ))

/-- aviary/subsystems/mass/gasp_based/fuel.py:1041 -/
noncomputable def dfuswt_dfussa (fuselage_mass_scaler fus_mass_full fuselage_mass_coefficient fuselage_wetted_area fuselage_avg_diameter tailboom_length pylon_len min_dive_vel fuselage_pressure_differential wing_ultimate_load_factor : ℝ) : ℝ :=
  (((((((fuselage_mass_coefficient * (x_ fuselage_mass_scaler fus_mass_full fuselage_wetted_area
    fuselage_avg_diameter tailboom_length pylon_len min_dive_vel fuselage_pressure_differential
    wing_ultimate_load_factor)) * ((fus_mass_full / 10000) ^ ((7 / 10) : ℝ))) * (1 / 1000)) *
    fuselage_avg_diameter) * ((tailboom_length + pylon_len) ^ ((1 / 2) : ℝ))) * ((log
    min_dive_vel) / (log 10))) * ((fuselage_pressure_differential + 1) ^ ((1 / 5) : ℝ))) *
    (wing_ultimate_load_factor ^ ((3 / 10) : ℝ))

/-- aviary/subsystems/mass/gasp_based/fuel.py:1052 -/
noncomputable def dfuswt_dcabwidth (fuselage_mass_scaler fus_mass_full fuselage_mass_coefficient fuselage_wetted_area fuselage_avg_diameter tailboom_length pylon_len min_dive_vel fuselage_pressure_differential wing_ultimate_load_factor : ℝ) : ℝ :=
  ((((((fuselage_mass_coefficient * (x_ fuselage_mass_scaler fus_mass_full fuselage_wetted_area
    fuselage_avg_diameter tailboom_length pylon_len min_dive_vel fuselage_pressure_differential
    wing_ultimate_load_factor)) * ((fus_mass_full / 10000) ^ ((7 / 10) : ℝ))) *
    (fuselage_wetted_area / 1000)) * ((tailboom_length + pylon_len) ^ ((1 / 2) : ℝ))) * ((log
    min_dive_vel) / (log 10))) * ((fuselage_pressure_differential + 1) ^ ((1 / 5) : ℝ))) *
    (wing_ultimate_load_factor ^ ((3 / 10) : ℝ))

/-- aviary/subsystems/mass/gasp_based/fuel.py:1062 -/
noncomputable def dfuswt_dcablenboom (fuselage_mass_scaler fus_mass_full fuselage_mass_coefficient fuselage_wetted_area fuselage_avg_diameter tailboom_length pylon_len min_dive_vel fuselage_pressure_differential wing_ultimate_load_factor : ℝ) : ℝ :=
  ((((((((fuselage_mass_coefficient * (x_ fuselage_mass_scaler fus_mass_full
    fuselage_wetted_area fuselage_avg_diameter tailboom_length pylon_len min_dive_vel
    fuselage_pressure_differential wing_ultimate_load_factor)) * ((fus_mass_full / 10000) ^ ((7
    / 10) : ℝ))) * (fuselage_wetted_area / 1000)) * fuselage_avg_diameter) * (1 / 2)) *
    ((tailboom_length + pylon_len) ^ ((-(1 / 2)) : ℝ))) * ((log min_dive_vel) / (log 10))) *
    ((fuselage_pressure_differential + 1) ^ ((1 / 5) : ℝ))) * (wing_ultimate_load_factor ^ ((3 /
    10) : ℝ))

/-- aviary/subsystems/mass/gasp_based/fuel.py:1074 -/
noncomputable def dfuswt_dpylonlen (fuselage_mass_scaler fus_mass_full fuselage_mass_coefficient fuselage_wetted_area fuselage_avg_diameter tailboom_length pylon_len min_dive_vel fuselage_pressure_differential wing_ultimate_load_factor : ℝ) : ℝ :=
  ((((((((fuselage_mass_coefficient * (x_ fuselage_mass_scaler fus_mass_full
    fuselage_wetted_area fuselage_avg_diameter tailboom_length pylon_len min_dive_vel
    fuselage_pressure_differential wing_ultimate_load_factor)) * ((fus_mass_full / 10000) ^ ((7
    / 10) : ℝ))) * (fuselage_wetted_area / 1000)) * fuselage_avg_diameter) * (1 / 2)) *
    ((tailboom_length + pylon_len) ^ ((-(1 / 2)) : ℝ))) * ((log min_dive_vel) / (log 10))) *
    ((fuselage_pressure_differential + 1) ^ ((1 / 5) : ℝ))) * (wing_ultimate_load_factor ^ ((3 /
    10) : ℝ))

/-- aviary/subsystems/mass/gasp_based/fuel.py:1086 -/
noncomputable def dfuswt_dmindivevel (fuselage_mass_scaler fus_mass_full fuselage_mass_coefficient fuselage_wetted_area fuselage_avg_diameter tailboom_length pylon_len min_dive_vel fuselage_pressure_differential wing_ultimate_load_factor : ℝ) : ℝ :=
  (((((((fuselage_mass_coefficient * (x_ fuselage_mass_scaler fus_mass_full fuselage_wetted_area
    fuselage_avg_diameter tailboom_length pylon_len min_dive_vel fuselage_pressure_differential
    wing_ultimate_load_factor)) * ((fus_mass_full / 10000) ^ ((7 / 10) : ℝ))) *
    (fuselage_wetted_area / 1000)) * fuselage_avg_diameter) * ((tailboom_length + pylon_len) ^
    ((1 / 2) : ℝ))) / (min_dive_vel * (log 10))) * ((fuselage_pressure_differential + 1) ^ ((1 /
    5) : ℝ))) * (wing_ultimate_load_factor ^ ((3 / 10) : ℝ))

/-- aviary/subsystems/mass/gasp_based/fuel.py:1098 -/
noncomputable def dfuswt_dpdifffus (fuselage_mass_scaler fus_mass_full fuselage_mass_coefficient fuselage_wetted_area fuselage_avg_diameter tailboom_length pylon_len min_dive_vel fuselage_pressure_differential wing_ultimate_load_factor : ℝ) : ℝ :=
  ((((((((fuselage_mass_coefficient * (x_ fuselage_mass_scaler fus_mass_full
    fuselage_wetted_area fuselage_avg_diameter tailboom_length pylon_len min_dive_vel
    fuselage_pressure_differential wing_ultimate_load_factor)) * ((fus_mass_full / 10000) ^ ((7
    / 10) : ℝ))) * (fuselage_wetted_area / 1000)) * fuselage_avg_diameter) * ((tailboom_length +
    pylon_len) ^ ((1 / 2) : ℝ))) * ((log min_dive_vel) / (log 10))) * (1 / 5)) *
    ((fuselage_pressure_differential + 1) ^ ((-(4 / 5)) : ℝ))) * (wing_ultimate_load_factor ^
    ((3 / 10) : ℝ))

/-- aviary/subsystems/mass/gasp_based/fuel.py:1110 -/
noncomputable def dfuswt_dulf (fuselage_mass_scaler fus_mass_full fuselage_mass_coefficient fuselage_wetted_area fuselage_avg_diameter tailboom_length pylon_len min_dive_vel fuselage_pressure_differential wing_ultimate_load_factor : ℝ) : ℝ :=
  ((((((((fuselage_mass_coefficient * (x_ fuselage_mass_scaler fus_mass_full
    fuselage_wetted_area fuselage_avg_diameter tailboom_length pylon_len min_dive_vel
    fuselage_pressure_differential wing_ultimate_load_factor)) * ((fus_mass_full / 10000) ^ ((7
    / 10) : ℝ))) * (fuselage_wetted_area / 1000)) * fuselage_avg_diameter) * ((tailboom_length +
    pylon_len) ^ ((1 / 2) : ℝ))) * ((log min_dive_vel) / (log 10))) *
    ((fuselage_pressure_differential + 1) ^ ((1 / 5) : ℝ))) * (3 / 10)) *
    (wing_ultimate_load_factor ^ ((-(7 / 10)) : ℝ))

/-- Output `fuselage_mass` of `FuselageMass.compute`, aviary/subsystems/mass/gasp_based/fuel.py:971 -/
noncomputable def out_fuselage_mass (fuselage_mass_scaler fus_mass_full fuselage_mass_coefficient fuselage_wetted_area fuselage_avg_diameter tailboom_length pylon_len min_dive_vel fuselage_pressure_differential wing_ultimate_load_factor mat : ℝ) : ℝ :=
  fus_wt fuselage_mass_scaler fus_mass_full fuselage_mass_coefficient fuselage_wetted_area
    fuselage_avg_diameter tailboom_length pylon_len min_dive_vel fuselage_pressure_differential
    wing_ultimate_load_factor mat

/-- Partial of `fuselage_mass` with respect to `fuselage_mass_scaler` as set by `FuselageMass`, aviary/subsystems/mass/gasp_based/fuel.py:1122 -/
noncomputable def J_fuselage_mass__fuselage_mass_scaler (fuselage_mass_scaler fus_mass_full fuselage_mass_coefficient fuselage_wetted_area fuselage_avg_diameter tailboom_length pylon_len min_dive_vel fuselage_pressure_differential wing_ultimate_load_factor mat : ℝ) : ℝ :=
  (fus_wt fuselage_mass_scaler fus_mass_full fuselage_mass_coefficient fuselage_wetted_area
    fuselage_avg_diameter tailboom_length pylon_len min_dive_vel fuselage_pressure_differential
    wing_ultimate_load_factor mat) / fuselage_mass_scaler

/-- Partial of `fuselage_mass` with respect to `fuselage_mass_coefficient` as set by `FuselageMass`, aviary/subsystems/mass/gasp_based/fuel.py:1123 -/
noncomputable def J_fuselage_mass__fuselage_mass_coefficient (fuselage_mass_scaler fus_mass_full fuselage_wetted_area fuselage_avg_diameter tailboom_length pylon_len min_dive_vel fuselage_pressure_differential wing_ultimate_load_factor : ℝ) : ℝ :=
  dfuswt_dcfus fuselage_mass_scaler fus_mass_full fuselage_wetted_area fuselage_avg_diameter
    tailboom_length pylon_len min_dive_vel fuselage_pressure_differential
    wing_ultimate_load_factor

/-- Partial of `fuselage_mass` with respect to `fus_mass_full` as set by `FuselageMass`, aviary/subsystems/mass/gasp_based/fuel.py:1126 -/
noncomputable def J_fuselage_mass__fus_mass_full (fuselage_mass_scaler fus_mass_full fuselage_mass_coefficient fuselage_wetted_area fuselage_avg_diameter tailboom_length pylon_len min_dive_vel fuselage_pressure_differential wing_ultimate_load_factor : ℝ) : ℝ :=
  dfuswt_dfuswtfull fuselage_mass_scaler fus_mass_full fuselage_mass_coefficient
    fuselage_wetted_area fuselage_avg_diameter tailboom_length pylon_len min_dive_vel
    fuselage_pressure_differential wing_ultimate_load_factor

/-- Partial of `fuselage_mass` with respect to `fuselage_wetted_area` as set by `FuselageMass`, aviary/subsystems/mass/gasp_based/fuel.py:1127 -/
noncomputable def J_fuselage_mass__fuselage_wetted_area (fuselage_mass_scaler fus_mass_full fuselage_mass_coefficient fuselage_wetted_area fuselage_avg_diameter tailboom_length pylon_len min_dive_vel fuselage_pressure_differential wing_ultimate_load_factor : ℝ) : ℝ :=
  dfuswt_dfussa fuselage_mass_scaler fus_mass_full fuselage_mass_coefficient
    fuselage_wetted_area fuselage_avg_diameter tailboom_length pylon_len min_dive_vel
    fuselage_pressure_differential wing_ultimate_load_factor

/-- Partial of `fuselage_mass` with respect to `fuselage_avg_diameter` as set by `FuselageMass`, aviary/subsystems/mass/gasp_based/fuel.py:1128 -/
noncomputable def J_fuselage_mass__fuselage_avg_diameter (fuselage_mass_scaler fus_mass_full fuselage_mass_coefficient fuselage_wetted_area fuselage_avg_diameter tailboom_length pylon_len min_dive_vel fuselage_pressure_differential wing_ultimate_load_factor : ℝ) : ℝ :=
  dfuswt_dcabwidth fuselage_mass_scaler fus_mass_full fuselage_mass_coefficient
    fuselage_wetted_area fuselage_avg_diameter tailboom_length pylon_len min_dive_vel
    fuselage_pressure_differential wing_ultimate_load_factor

/-- Partial of `fuselage_mass` with respect to `tailboom_length` as set by `FuselageMass`, aviary/subsystems/mass/gasp_based/fuel.py:1131 -/
noncomputable def J_fuselage_mass__tailboom_length (fuselage_mass_scaler fus_mass_full fuselage_mass_coefficient fuselage_wetted_area fuselage_avg_diameter tailboom_length pylon_len min_dive_vel fuselage_pressure_differential wing_ultimate_load_factor : ℝ) : ℝ :=
  dfuswt_dcablenboom fuselage_mass_scaler fus_mass_full fuselage_mass_coefficient
    fuselage_wetted_area fuselage_avg_diameter tailboom_length pylon_len min_dive_vel
    fuselage_pressure_differential wing_ultimate_load_factor

/-- Partial of `fuselage_mass` with respect to `pylon_len` as set by `FuselageMass`, aviary/subsystems/mass/gasp_based/fuel.py:1132 -/
noncomputable def J_fuselage_mass__pylon_len (fuselage_mass_scaler fus_mass_full fuselage_mass_coefficient fuselage_wetted_area fuselage_avg_diameter tailboom_length pylon_len min_dive_vel fuselage_pressure_differential wing_ultimate_load_factor : ℝ) : ℝ :=
  dfuswt_dpylonlen fuselage_mass_scaler fus_mass_full fuselage_mass_coefficient
    fuselage_wetted_area fuselage_avg_diameter tailboom_length pylon_len min_dive_vel
    fuselage_pressure_differential wing_ultimate_load_factor

/-- Partial of `fuselage_mass` with respect to `min_dive_vel` as set by `FuselageMass`, aviary/subsystems/mass/gasp_based/fuel.py:1133 -/
noncomputable def J_fuselage_mass__min_dive_vel (fuselage_mass_scaler fus_mass_full fuselage_mass_coefficient fuselage_wetted_area fuselage_avg_diameter tailboom_length pylon_len min_dive_vel fuselage_pressure_differential wing_ultimate_load_factor : ℝ) : ℝ :=
  dfuswt_dmindivevel fuselage_mass_scaler fus_mass_full fuselage_mass_coefficient
    fuselage_wetted_area fuselage_avg_diameter tailboom_length pylon_len min_dive_vel
    fuselage_pressure_differential wing_ultimate_load_factor

/-- Partial of `fuselage_mass` with respect to `fuselage_pressure_differential` as set by `FuselageMass`, aviary/subsystems/mass/gasp_based/fuel.py:1134 -/
noncomputable def J_fuselage_mass__fuselage_pressure_differential (fuselage_mass_scaler fus_mass_full fuselage_mass_coefficient fuselage_wetted_area fuselage_avg_diameter tailboom_length pylon_len min_dive_vel fuselage_pressure_differential wing_ultimate_load_factor : ℝ) : ℝ :=
  dfuswt_dpdifffus fuselage_mass_scaler fus_mass_full fuselage_mass_coefficient
    fuselage_wetted_area fuselage_avg_diameter tailboom_length pylon_len min_dive_vel
    fuselage_pressure_differential wing_ultimate_load_factor

/-- Partial of `fuselage_mass` with respect to `wing_ultimate_load_factor` as set by `FuselageMass`, aviary/subsystems/mass/gasp_based/fuel.py:1137 -/
noncomputable def J_fuselage_mass__wing_ultimate_load_factor (fuselage_mass_scaler fus_mass_full fuselage_mass_coefficient fuselage_wetted_area fuselage_avg_diameter tailboom_length pylon_len min_dive_vel fuselage_pressure_differential wing_ultimate_load_factor : ℝ) : ℝ :=
  dfuswt_dulf fuselage_mass_scaler fus_mass_full fuselage_mass_coefficient fuselage_wetted_area
    fuselage_avg_diameter tailboom_length pylon_len min_dive_vel fuselage_pressure_differential
    wing_ultimate_load_factor

/-- Partial of `fuselage_mass` with respect to `mat` as set by `FuselageMass`, aviary/subsystems/mass/gasp_based/fuel.py:1140 -/
noncomputable def J_fuselage_mass__mat : ℝ := 1

theorem d_fuselage_mass__fuselage_mass_scaler (fuselage_mass_scaler fus_mass_full
    fuselage_mass_coefficient fuselage_wetted_area fuselage_avg_diameter tailboom_length pylon_len
    min_dive_vel fuselage_pressure_differential wing_ultimate_load_factor mat : ℝ) (h0 : 0 <
    fus_mass_full) (h1 : 0 < tailboom_length) (h2 : 0 < pylon_len) (h3 : 0 < min_dive_vel) (h4 :
    log 10 ≠ 0) (h5 : 0 < fuselage_pressure_differential) (h6 : 0 < wing_ultimate_load_factor) (h7
    : 0 < fuselage_wetted_area) (h8 : 0 < fuselage_avg_diameter) (h9 : 0 < log min_dive_vel) (h10
    : 0 < log 10) (h11 : 0 < fuselage_mass_scaler) :
    HasDerivAt (fun t => out_fuselage_mass t fus_mass_full fuselage_mass_coefficient fuselage_wetted_area fuselage_avg_diameter tailboom_length pylon_len min_dive_vel fuselage_pressure_differential wing_ultimate_load_factor mat) (J_fuselage_mass__fuselage_mass_scaler fuselage_mass_scaler fus_mass_full fuselage_mass_coefficient fuselage_wetted_area fuselage_avg_diameter tailboom_length pylon_len min_dive_vel fuselage_pressure_differential wing_ultimate_load_factor mat) fuselage_mass_scaler := by
  have e0 : ∀ x : ℝ, 0 < x → x ^ ((7 / 10) : ℝ) = x ^ 1 / x ^ ((3 / 10) : ℝ) := fun x hx => rpow_comp hx 1 (by norm_num)
  simp only [out_fuselage_mass, J_fuselage_mass__fuselage_mass_scaler, fus_wt]
  (apply hasDerivAt_of_eq; on_goal 1 => (repeat' comp_step))
  all_goals try comp_side
  all_goals try simp (disch := first | assumption | positivity) only [e0, div_mul_eq_div_div, div_half, inv_half]
  all_goals try simp only [mul_zero, zero_mul, add_zero, zero_add, sub_zero, zero_sub, mul_one, one_mul]
  all_goals try push_cast
  all_goals comp_eq

theorem d_fuselage_mass__fus_mass_full (fuselage_mass_scaler fus_mass_full
    fuselage_mass_coefficient fuselage_wetted_area fuselage_avg_diameter tailboom_length pylon_len
    min_dive_vel fuselage_pressure_differential wing_ultimate_load_factor mat : ℝ) (h0 : 0 <
    fus_mass_full) (h1 : 0 < tailboom_length) (h2 : 0 < pylon_len) (h3 : 0 < min_dive_vel) (h4 :
    log 10 ≠ 0) (h5 : 0 < fuselage_pressure_differential) (h6 : 0 < wing_ultimate_load_factor) (h7
    : 0 < fuselage_wetted_area) (h8 : 0 < fuselage_avg_diameter) (h9 : 0 < log min_dive_vel) (h10
    : 0 < log 10) :
    HasDerivAt (fun t => out_fuselage_mass fuselage_mass_scaler t fuselage_mass_coefficient fuselage_wetted_area fuselage_avg_diameter tailboom_length pylon_len min_dive_vel fuselage_pressure_differential wing_ultimate_load_factor mat) (J_fuselage_mass__fus_mass_full fuselage_mass_scaler fus_mass_full fuselage_mass_coefficient fuselage_wetted_area fuselage_avg_diameter tailboom_length pylon_len min_dive_vel fuselage_pressure_differential wing_ultimate_load_factor) fus_mass_full := by
  have e0 : ∀ x : ℝ, 0 < x → x ^ ((-(123 / 250)) : ℝ) = x ^ ((127 / 250) : ℝ) / x ^ 1 := fun x hx => rpow_down hx 1 (by norm_num)
  have e1 : ∀ x : ℝ, 0 < x → x ^ ((-(3 / 10)) : ℝ) = x ^ 0 / x ^ ((3 / 10) : ℝ) := fun x hx => rpow_comp hx 0 (by norm_num)
  have e2 : ∀ x : ℝ, 0 < x → x ^ ((7 / 10) : ℝ) = x ^ 1 / x ^ ((3 / 10) : ℝ) := fun x hx => rpow_comp hx 1 (by norm_num)
  simp only [out_fuselage_mass, J_fuselage_mass__fus_mass_full, dfuswt_dfuswtfull, x_, fus_wt]
  (apply hasDerivAt_of_eq; on_goal 1 => (repeat' comp_step))
  all_goals try comp_side
  all_goals try simp (disch := first | assumption | positivity) only [e0, e1, e2, div_mul_eq_div_div, div_half, inv_half]
  all_goals try simp only [mul_zero, zero_mul, add_zero, zero_add, sub_zero, zero_sub, mul_one, one_mul]
  all_goals try push_cast
  all_goals comp_eq

theorem d_fuselage_mass__fuselage_mass_coefficient (fuselage_mass_scaler fus_mass_full
    fuselage_mass_coefficient fuselage_wetted_area fuselage_avg_diameter tailboom_length pylon_len
    min_dive_vel fuselage_pressure_differential wing_ultimate_load_factor mat : ℝ) (h0 : 0 <
    fus_mass_full) (h1 : 0 < tailboom_length) (h2 : 0 < pylon_len) (h3 : 0 < min_dive_vel) (h4 :
    log 10 ≠ 0) (h5 : 0 < fuselage_pressure_differential) (h6 : 0 < wing_ultimate_load_factor) (h7
    : 0 < fuselage_wetted_area) (h8 : 0 < fuselage_avg_diameter) (h9 : 0 < log min_dive_vel) (h10
    : 0 < log 10) :
    HasDerivAt (fun t => out_fuselage_mass fuselage_mass_scaler fus_mass_full t fuselage_wetted_area fuselage_avg_diameter tailboom_length pylon_len min_dive_vel fuselage_pressure_differential wing_ultimate_load_factor mat) (J_fuselage_mass__fuselage_mass_coefficient fuselage_mass_scaler fus_mass_full fuselage_wetted_area fuselage_avg_diameter tailboom_length pylon_len min_dive_vel fuselage_pressure_differential wing_ultimate_load_factor) fuselage_mass_coefficient := by
  have e0 : ∀ x : ℝ, 0 < x → x ^ ((7 / 10) : ℝ) = x ^ 1 / x ^ ((3 / 10) : ℝ) := fun x hx => rpow_comp hx 1 (by norm_num)
  simp only [out_fuselage_mass, J_fuselage_mass__fuselage_mass_coefficient, dfuswt_dcfus, fus_wt]
  (apply hasDerivAt_of_eq; on_goal 1 => (repeat' comp_step))
  all_goals try comp_side
  all_goals try simp (disch := first | assumption | positivity) only [e0, div_mul_eq_div_div, div_half, inv_half]
  all_goals try simp only [mul_zero, zero_mul, add_zero, zero_add, sub_zero, zero_sub, mul_one, one_mul]
  all_goals try push_cast
  all_goals comp_eq

theorem d_fuselage_mass__fuselage_wetted_area (fuselage_mass_scaler fus_mass_full
    fuselage_mass_coefficient fuselage_wetted_area fuselage_avg_diameter tailboom_length pylon_len
    min_dive_vel fuselage_pressure_differential wing_ultimate_load_factor mat : ℝ) (h0 : 0 <
    fus_mass_full) (h1 : 0 < tailboom_length) (h2 : 0 < pylon_len) (h3 : 0 < min_dive_vel) (h4 :
    log 10 ≠ 0) (h5 : 0 < fuselage_pressure_differential) (h6 : 0 < wing_ultimate_load_factor) (h7
    : 0 < fuselage_wetted_area) (h8 : 0 < fuselage_avg_diameter) (h9 : 0 < log min_dive_vel) (h10
    : 0 < log 10) :
    HasDerivAt (fun t => out_fuselage_mass fuselage_mass_scaler fus_mass_full fuselage_mass_coefficient t fuselage_avg_diameter tailboom_length pylon_len min_dive_vel fuselage_pressure_differential wing_ultimate_load_factor mat) (J_fuselage_mass__fuselage_wetted_area fuselage_mass_scaler fus_mass_full fuselage_mass_coefficient fuselage_wetted_area fuselage_avg_diameter tailboom_length pylon_len min_dive_vel fuselage_pressure_differential wing_ultimate_load_factor) fuselage_wetted_area := by
  have e0 : ∀ x : ℝ, 0 < x → x ^ ((-(123 / 250)) : ℝ) = x ^ ((127 / 250) : ℝ) / x ^ 1 := fun x hx => rpow_down hx 1 (by norm_num)
  have e1 : ∀ x : ℝ, 0 < x → x ^ ((7 / 10) : ℝ) = x ^ 1 / x ^ ((3 / 10) : ℝ) := fun x hx => rpow_comp hx 1 (by norm_num)
  simp only [out_fuselage_mass, J_fuselage_mass__fuselage_wetted_area, dfuswt_dfussa, x_, fus_wt]
  (apply hasDerivAt_of_eq; on_goal 1 => (repeat' comp_step))
  all_goals try comp_side
  all_goals try simp (disch := first | assumption | positivity) only [e0, e1, div_mul_eq_div_div, div_half, inv_half]
  all_goals try simp only [mul_zero, zero_mul, add_zero, zero_add, sub_zero, zero_sub, mul_one, one_mul]
  all_goals try push_cast
  all_goals comp_eq

theorem d_fuselage_mass__fuselage_avg_diameter (fuselage_mass_scaler fus_mass_full
    fuselage_mass_coefficient fuselage_wetted_area fuselage_avg_diameter tailboom_length pylon_len
    min_dive_vel fuselage_pressure_differential wing_ultimate_load_factor mat : ℝ) (h0 : 0 <
    fus_mass_full) (h1 : 0 < tailboom_length) (h2 : 0 < pylon_len) (h3 : 0 < min_dive_vel) (h4 :
    log 10 ≠ 0) (h5 : 0 < fuselage_pressure_differential) (h6 : 0 < wing_ultimate_load_factor) (h7
    : 0 < fuselage_wetted_area) (h8 : 0 < fuselage_avg_diameter) (h9 : 0 < log min_dive_vel) (h10
    : 0 < log 10) :
    HasDerivAt (fun t => out_fuselage_mass fuselage_mass_scaler fus_mass_full fuselage_mass_coefficient fuselage_wetted_area t tailboom_length pylon_len min_dive_vel fuselage_pressure_differential wing_ultimate_load_factor mat) (J_fuselage_mass__fuselage_avg_diameter fuselage_mass_scaler fus_mass_full fuselage_mass_coefficient fuselage_wetted_area fuselage_avg_diameter tailboom_length pylon_len min_dive_vel fuselage_pressure_differential wing_ultimate_load_factor) fuselage_avg_diameter := by
  have e0 : ∀ x : ℝ, 0 < x → x ^ ((-(123 / 250)) : ℝ) = x ^ ((127 / 250) : ℝ) / x ^ 1 := fun x hx => rpow_down hx 1 (by norm_num)
  have e1 : ∀ x : ℝ, 0 < x → x ^ ((7 / 10) : ℝ) = x ^ 1 / x ^ ((3 / 10) : ℝ) := fun x hx => rpow_comp hx 1 (by norm_num)
  simp only [out_fuselage_mass, J_fuselage_mass__fuselage_avg_diameter, dfuswt_dcabwidth, x_, fus_wt]
  (apply hasDerivAt_of_eq; on_goal 1 => (repeat' comp_step))
  all_goals try comp_side
  all_goals try simp (disch := first | assumption | positivity) only [e0, e1, div_mul_eq_div_div, div_half, inv_half]
  all_goals try simp only [mul_zero, zero_mul, add_zero, zero_add, sub_zero, zero_sub, mul_one, one_mul]
  all_goals try push_cast
  all_goals comp_eq

theorem d_fuselage_mass__tailboom_length (fuselage_mass_scaler fus_mass_full
    fuselage_mass_coefficient fuselage_wetted_area fuselage_avg_diameter tailboom_length pylon_len
    min_dive_vel fuselage_pressure_differential wing_ultimate_load_factor mat : ℝ) (h0 : 0 <
    fus_mass_full) (h1 : 0 < tailboom_length) (h2 : 0 < pylon_len) (h3 : 0 < min_dive_vel) (h4 :
    log 10 ≠ 0) (h5 : 0 < fuselage_pressure_differential) (h6 : 0 < wing_ultimate_load_factor) (h7
    : 0 < fuselage_wetted_area) (h8 : 0 < fuselage_avg_diameter) (h9 : 0 < log min_dive_vel) (h10
    : 0 < log 10) :
    HasDerivAt (fun t => out_fuselage_mass fuselage_mass_scaler fus_mass_full fuselage_mass_coefficient fuselage_wetted_area fuselage_avg_diameter t pylon_len min_dive_vel fuselage_pressure_differential wing_ultimate_load_factor mat) (J_fuselage_mass__tailboom_length fuselage_mass_scaler fus_mass_full fuselage_mass_coefficient fuselage_wetted_area fuselage_avg_diameter tailboom_length pylon_len min_dive_vel fuselage_pressure_differential wing_ultimate_load_factor) tailboom_length := by
  have e0 : ∀ x : ℝ, 0 < x → x ^ ((-(1 / 2)) : ℝ) = x ^ ((1 / 2) : ℝ) / x ^ 1 := fun x hx => rpow_down hx 1 (by norm_num)
  have e1 : ∀ x : ℝ, 0 < x → x ^ ((-(123 / 250)) : ℝ) = x ^ ((127 / 250) : ℝ) / x ^ 1 := fun x hx => rpow_down hx 1 (by norm_num)
  have e2 : ∀ x : ℝ, 0 < x → x ^ ((7 / 10) : ℝ) = x ^ 1 / x ^ ((3 / 10) : ℝ) := fun x hx => rpow_comp hx 1 (by norm_num)
  simp only [out_fuselage_mass, J_fuselage_mass__tailboom_length, dfuswt_dcablenboom, x_, fus_wt]
  (apply hasDerivAt_of_eq; on_goal 1 => (repeat' comp_step))
  all_goals try comp_side
  all_goals try simp (disch := first | assumption | positivity) only [e0, e1, e2, div_mul_eq_div_div, div_half, inv_half]
  all_goals try simp only [mul_zero, zero_mul, add_zero, zero_add, sub_zero, zero_sub, mul_one, one_mul]
  all_goals try push_cast
  all_goals comp_eq

theorem d_fuselage_mass__pylon_len (fuselage_mass_scaler fus_mass_full fuselage_mass_coefficient
    fuselage_wetted_area fuselage_avg_diameter tailboom_length pylon_len min_dive_vel
    fuselage_pressure_differential wing_ultimate_load_factor mat : ℝ) (h0 : 0 < fus_mass_full) (h1
    : 0 < tailboom_length) (h2 : 0 < pylon_len) (h3 : 0 < min_dive_vel) (h4 : log 10 ≠ 0) (h5 : 0
    < fuselage_pressure_differential) (h6 : 0 < wing_ultimate_load_factor) (h7 : 0 <
    fuselage_wetted_area) (h8 : 0 < fuselage_avg_diameter) (h9 : 0 < log min_dive_vel) (h10 : 0 <
    log 10) :
    HasDerivAt (fun t => out_fuselage_mass fuselage_mass_scaler fus_mass_full fuselage_mass_coefficient fuselage_wetted_area fuselage_avg_diameter tailboom_length t min_dive_vel fuselage_pressure_differential wing_ultimate_load_factor mat) (J_fuselage_mass__pylon_len fuselage_mass_scaler fus_mass_full fuselage_mass_coefficient fuselage_wetted_area fuselage_avg_diameter tailboom_length pylon_len min_dive_vel fuselage_pressure_differential wing_ultimate_load_factor) pylon_len := by
  have e0 : ∀ x : ℝ, 0 < x → x ^ ((-(1 / 2)) : ℝ) = x ^ ((1 / 2) : ℝ) / x ^ 1 := fun x hx => rpow_down hx 1 (by norm_num)
  have e1 : ∀ x : ℝ, 0 < x → x ^ ((-(123 / 250)) : ℝ) = x ^ ((127 / 250) : ℝ) / x ^ 1 := fun x hx => rpow_down hx 1 (by norm_num)
  have e2 : ∀ x : ℝ, 0 < x → x ^ ((7 / 10) : ℝ) = x ^ 1 / x ^ ((3 / 10) : ℝ) := fun x hx => rpow_comp hx 1 (by norm_num)
  simp only [out_fuselage_mass, J_fuselage_mass__pylon_len, dfuswt_dpylonlen, x_, fus_wt]
  (apply hasDerivAt_of_eq; on_goal 1 => (repeat' comp_step))
  all_goals try comp_side
  all_goals try simp (disch := first | assumption | positivity) only [e0, e1, e2, div_mul_eq_div_div, div_half, inv_half]
  all_goals try simp only [mul_zero, zero_mul, add_zero, zero_add, sub_zero, zero_sub, mul_one, one_mul]
  all_goals try push_cast
  all_goals comp_eq

theorem d_fuselage_mass__min_dive_vel (fuselage_mass_scaler fus_mass_full
    fuselage_mass_coefficient fuselage_wetted_area fuselage_avg_diameter tailboom_length pylon_len
    min_dive_vel fuselage_pressure_differential wing_ultimate_load_factor mat : ℝ) (h0 : 0 <
    fus_mass_full) (h1 : 0 < tailboom_length) (h2 : 0 < pylon_len) (h3 : 0 < min_dive_vel) (h4 :
    log 10 ≠ 0) (h5 : 0 < fuselage_pressure_differential) (h6 : 0 < wing_ultimate_load_factor) (h7
    : 0 < fuselage_wetted_area) (h8 : 0 < fuselage_avg_diameter) (h9 : 0 < log min_dive_vel) (h10
    : 0 < log 10) :
    HasDerivAt (fun t => out_fuselage_mass fuselage_mass_scaler fus_mass_full fuselage_mass_coefficient fuselage_wetted_area fuselage_avg_diameter tailboom_length pylon_len t fuselage_pressure_differential wing_ultimate_load_factor mat) (J_fuselage_mass__min_dive_vel fuselage_mass_scaler fus_mass_full fuselage_mass_coefficient fuselage_wetted_area fuselage_avg_diameter tailboom_length pylon_len min_dive_vel fuselage_pressure_differential wing_ultimate_load_factor) min_dive_vel := by
  have e0 : ∀ x : ℝ, 0 < x → x ^ ((-(123 / 250)) : ℝ) = x ^ ((127 / 250) : ℝ) / x ^ 1 := fun x hx => rpow_down hx 1 (by norm_num)
  have e1 : ∀ x : ℝ, 0 < x → x ^ ((7 / 10) : ℝ) = x ^ 1 / x ^ ((3 / 10) : ℝ) := fun x hx => rpow_comp hx 1 (by norm_num)
  simp only [out_fuselage_mass, J_fuselage_mass__min_dive_vel, dfuswt_dmindivevel, x_, fus_wt]
  (apply hasDerivAt_of_eq; on_goal 1 => (repeat' comp_step))
  all_goals try comp_side
  all_goals try simp (disch := first | assumption | positivity) only [e0, e1, div_mul_eq_div_div, div_half, inv_half]
  all_goals try simp only [mul_zero, zero_mul, add_zero, zero_add, sub_zero, zero_sub, mul_one, one_mul]
  all_goals try push_cast
  all_goals comp_eq

theorem d_fuselage_mass__fuselage_pressure_differential (fuselage_mass_scaler fus_mass_full
    fuselage_mass_coefficient fuselage_wetted_area fuselage_avg_diameter tailboom_length pylon_len
    min_dive_vel fuselage_pressure_differential wing_ultimate_load_factor mat : ℝ) (h0 : 0 <
    fus_mass_full) (h1 : 0 < tailboom_length) (h2 : 0 < pylon_len) (h3 : 0 < min_dive_vel) (h4 :
    log 10 ≠ 0) (h5 : 0 < fuselage_pressure_differential) (h6 : 0 < wing_ultimate_load_factor) (h7
    : 0 < fuselage_wetted_area) (h8 : 0 < fuselage_avg_diameter) (h9 : 0 < log min_dive_vel) (h10
    : 0 < log 10) :
    HasDerivAt (fun t => out_fuselage_mass fuselage_mass_scaler fus_mass_full fuselage_mass_coefficient fuselage_wetted_area fuselage_avg_diameter tailboom_length pylon_len min_dive_vel t wing_ultimate_load_factor mat) (J_fuselage_mass__fuselage_pressure_differential fuselage_mass_scaler fus_mass_full fuselage_mass_coefficient fuselage_wetted_area fuselage_avg_diameter tailboom_length pylon_len min_dive_vel fuselage_pressure_differential wing_ultimate_load_factor) fuselage_pressure_differential := by
  have e0 : ∀ x : ℝ, 0 < x → x ^ ((-(4 / 5)) : ℝ) = x ^ ((1 / 5) : ℝ) / x ^ 1 := fun x hx => rpow_down hx 1 (by norm_num)
  have e1 : ∀ x : ℝ, 0 < x → x ^ ((-(123 / 250)) : ℝ) = x ^ ((127 / 250) : ℝ) / x ^ 1 := fun x hx => rpow_down hx 1 (by norm_num)
  have e2 : ∀ x : ℝ, 0 < x → x ^ ((7 / 10) : ℝ) = x ^ 1 / x ^ ((3 / 10) : ℝ) := fun x hx => rpow_comp hx 1 (by norm_num)
  simp only [out_fuselage_mass, J_fuselage_mass__fuselage_pressure_differential, dfuswt_dpdifffus, x_, fus_wt]
  (apply hasDerivAt_of_eq; on_goal 1 => (repeat' comp_step))
  all_goals try comp_side
  all_goals try simp (disch := first | assumption | positivity) only [e0, e1, e2, div_mul_eq_div_div, div_half, inv_half]
  all_goals try simp only [mul_zero, zero_mul, add_zero, zero_add, sub_zero, zero_sub, mul_one, one_mul]
  all_goals try push_cast
  all_goals comp_eq

theorem d_fuselage_mass__wing_ultimate_load_factor (fuselage_mass_scaler fus_mass_full
    fuselage_mass_coefficient fuselage_wetted_area fuselage_avg_diameter tailboom_length pylon_len
    min_dive_vel fuselage_pressure_differential wing_ultimate_load_factor mat : ℝ) (h0 : 0 <
    fus_mass_full) (h1 : 0 < tailboom_length) (h2 : 0 < pylon_len) (h3 : 0 < min_dive_vel) (h4 :
    log 10 ≠ 0) (h5 : 0 < fuselage_pressure_differential) (h6 : 0 < wing_ultimate_load_factor) (h7
    : 0 < fuselage_wetted_area) (h8 : 0 < fuselage_avg_diameter) (h9 : 0 < log min_dive_vel) (h10
    : 0 < log 10) :
    HasDerivAt (fun t => out_fuselage_mass fuselage_mass_scaler fus_mass_full fuselage_mass_coefficient fuselage_wetted_area fuselage_avg_diameter tailboom_length pylon_len min_dive_vel fuselage_pressure_differential t mat) (J_fuselage_mass__wing_ultimate_load_factor fuselage_mass_scaler fus_mass_full fuselage_mass_coefficient fuselage_wetted_area fuselage_avg_diameter tailboom_length pylon_len min_dive_vel fuselage_pressure_differential wing_ultimate_load_factor) wing_ultimate_load_factor := by
  have e0 : ∀ x : ℝ, 0 < x → x ^ ((-(7 / 10)) : ℝ) = x ^ ((3 / 10) : ℝ) / x ^ 1 := fun x hx => rpow_down hx 1 (by norm_num)
  have e1 : ∀ x : ℝ, 0 < x → x ^ ((-(123 / 250)) : ℝ) = x ^ ((127 / 250) : ℝ) / x ^ 1 := fun x hx => rpow_down hx 1 (by norm_num)
  have e2 : ∀ x : ℝ, 0 < x → x ^ ((7 / 10) : ℝ) = x ^ 1 / x ^ ((3 / 10) : ℝ) := fun x hx => rpow_comp hx 1 (by norm_num)
  simp only [out_fuselage_mass, J_fuselage_mass__wing_ultimate_load_factor, dfuswt_dulf, x_, fus_wt]
  (apply hasDerivAt_of_eq; on_goal 1 => (repeat' comp_step))
  all_goals try comp_side
  all_goals try simp (disch := first | assumption | positivity) only [e0, e1, e2, div_mul_eq_div_div, div_half, inv_half]
  all_goals try simp only [mul_zero, zero_mul, add_zero, zero_add, sub_zero, zero_sub, mul_one, one_mul]
  all_goals try push_cast
  all_goals comp_eq

/-- Partial derivatives of `FuselageMass` that are proved correct (the rest is listed in the header). -/
theorem partials_partial (fuselage_mass_scaler fus_mass_full fuselage_mass_coefficient
    fuselage_wetted_area fuselage_avg_diameter tailboom_length pylon_len min_dive_vel
    fuselage_pressure_differential wing_ultimate_load_factor mat : ℝ) (h0 : 0 < fus_mass_full) (h1
    : 0 < tailboom_length) (h2 : 0 < pylon_len) (h3 : 0 < min_dive_vel) (h4 : log 10 ≠ 0) (h5 : 0
    < fuselage_pressure_differential) (h6 : 0 < wing_ultimate_load_factor) (h7 : 0 <
    fuselage_wetted_area) (h8 : 0 < fuselage_avg_diameter) (h9 : 0 < log min_dive_vel) (h10 : 0 <
    log 10) (h11 : 0 < fuselage_mass_scaler) :
    HasDerivAt (fun t => out_fuselage_mass t fus_mass_full fuselage_mass_coefficient
      fuselage_wetted_area fuselage_avg_diameter tailboom_length pylon_len min_dive_vel
      fuselage_pressure_differential wing_ultimate_load_factor mat)
      (J_fuselage_mass__fuselage_mass_scaler fuselage_mass_scaler fus_mass_full
      fuselage_mass_coefficient fuselage_wetted_area fuselage_avg_diameter tailboom_length
      pylon_len min_dive_vel fuselage_pressure_differential wing_ultimate_load_factor mat)
      fuselage_mass_scaler ∧
    HasDerivAt (fun t => out_fuselage_mass fuselage_mass_scaler t fuselage_mass_coefficient
      fuselage_wetted_area fuselage_avg_diameter tailboom_length pylon_len min_dive_vel
      fuselage_pressure_differential wing_ultimate_load_factor mat)
      (J_fuselage_mass__fus_mass_full fuselage_mass_scaler fus_mass_full fuselage_mass_coefficient
      fuselage_wetted_area fuselage_avg_diameter tailboom_length pylon_len min_dive_vel
      fuselage_pressure_differential wing_ultimate_load_factor) fus_mass_full ∧
    HasDerivAt (fun t => out_fuselage_mass fuselage_mass_scaler fus_mass_full t fuselage_wetted_area
      fuselage_avg_diameter tailboom_length pylon_len min_dive_vel fuselage_pressure_differential
      wing_ultimate_load_factor mat) (J_fuselage_mass__fuselage_mass_coefficient
      fuselage_mass_scaler fus_mass_full fuselage_wetted_area fuselage_avg_diameter
      tailboom_length pylon_len min_dive_vel fuselage_pressure_differential
      wing_ultimate_load_factor) fuselage_mass_coefficient ∧
    HasDerivAt (fun t => out_fuselage_mass fuselage_mass_scaler fus_mass_full
      fuselage_mass_coefficient t fuselage_avg_diameter tailboom_length pylon_len min_dive_vel
      fuselage_pressure_differential wing_ultimate_load_factor mat)
      (J_fuselage_mass__fuselage_wetted_area fuselage_mass_scaler fus_mass_full
      fuselage_mass_coefficient fuselage_wetted_area fuselage_avg_diameter tailboom_length
      pylon_len min_dive_vel fuselage_pressure_differential wing_ultimate_load_factor)
      fuselage_wetted_area ∧
    HasDerivAt (fun t => out_fuselage_mass fuselage_mass_scaler fus_mass_full
      fuselage_mass_coefficient fuselage_wetted_area t tailboom_length pylon_len min_dive_vel
      fuselage_pressure_differential wing_ultimate_load_factor mat)
      (J_fuselage_mass__fuselage_avg_diameter fuselage_mass_scaler fus_mass_full
      fuselage_mass_coefficient fuselage_wetted_area fuselage_avg_diameter tailboom_length
      pylon_len min_dive_vel fuselage_pressure_differential wing_ultimate_load_factor)
      fuselage_avg_diameter ∧
    HasDerivAt (fun t => out_fuselage_mass fuselage_mass_scaler fus_mass_full
      fuselage_mass_coefficient fuselage_wetted_area fuselage_avg_diameter t pylon_len
      min_dive_vel fuselage_pressure_differential wing_ultimate_load_factor mat)
      (J_fuselage_mass__tailboom_length fuselage_mass_scaler fus_mass_full
      fuselage_mass_coefficient fuselage_wetted_area fuselage_avg_diameter tailboom_length
      pylon_len min_dive_vel fuselage_pressure_differential wing_ultimate_load_factor)
      tailboom_length ∧
    HasDerivAt (fun t => out_fuselage_mass fuselage_mass_scaler fus_mass_full
      fuselage_mass_coefficient fuselage_wetted_area fuselage_avg_diameter tailboom_length t
      min_dive_vel fuselage_pressure_differential wing_ultimate_load_factor mat)
      (J_fuselage_mass__pylon_len fuselage_mass_scaler fus_mass_full fuselage_mass_coefficient
      fuselage_wetted_area fuselage_avg_diameter tailboom_length pylon_len min_dive_vel
      fuselage_pressure_differential wing_ultimate_load_factor) pylon_len ∧
    HasDerivAt (fun t => out_fuselage_mass fuselage_mass_scaler fus_mass_full
      fuselage_mass_coefficient fuselage_wetted_area fuselage_avg_diameter tailboom_length
      pylon_len t fuselage_pressure_differential wing_ultimate_load_factor mat)
      (J_fuselage_mass__min_dive_vel fuselage_mass_scaler fus_mass_full fuselage_mass_coefficient
      fuselage_wetted_area fuselage_avg_diameter tailboom_length pylon_len min_dive_vel
      fuselage_pressure_differential wing_ultimate_load_factor) min_dive_vel ∧
    HasDerivAt (fun t => out_fuselage_mass fuselage_mass_scaler fus_mass_full
      fuselage_mass_coefficient fuselage_wetted_area fuselage_avg_diameter tailboom_length
      pylon_len min_dive_vel t wing_ultimate_load_factor mat)
      (J_fuselage_mass__fuselage_pressure_differential fuselage_mass_scaler fus_mass_full
      fuselage_mass_coefficient fuselage_wetted_area fuselage_avg_diameter tailboom_length
      pylon_len min_dive_vel fuselage_pressure_differential wing_ultimate_load_factor)
      fuselage_pressure_differential ∧
    HasDerivAt (fun t => out_fuselage_mass fuselage_mass_scaler fus_mass_full
      fuselage_mass_coefficient fuselage_wetted_area fuselage_avg_diameter tailboom_length
      pylon_len min_dive_vel fuselage_pressure_differential t mat)
      (J_fuselage_mass__wing_ultimate_load_factor fuselage_mass_scaler fus_mass_full
      fuselage_mass_coefficient fuselage_wetted_area fuselage_avg_diameter tailboom_length
      pylon_len min_dive_vel fuselage_pressure_differential wing_ultimate_load_factor)
      wing_ultimate_load_factor :=
  ⟨d_fuselage_mass__fuselage_mass_scaler _ _ _ _ _ _ _ _ _ _ _ h0 h1 h2 h3 h4 h5 h6 h7 h8 h9 h10
    h11, d_fuselage_mass__fus_mass_full _ _ _ _ _ _ _ _ _ _ _ h0 h1 h2 h3 h4 h5 h6 h7 h8 h9 h10,
    d_fuselage_mass__fuselage_mass_coefficient _ _ _ _ _ _ _ _ _ _ _ h0 h1 h2 h3 h4 h5 h6 h7 h8 h9
    h10, d_fuselage_mass__fuselage_wetted_area _ _ _ _ _ _ _ _ _ _ _ h0 h1 h2 h3 h4 h5 h6 h7 h8 h9
    h10, d_fuselage_mass__fuselage_avg_diameter _ _ _ _ _ _ _ _ _ _ _ h0 h1 h2 h3 h4 h5 h6 h7 h8
    h9 h10, d_fuselage_mass__tailboom_length _ _ _ _ _ _ _ _ _ _ _ h0 h1 h2 h3 h4 h5 h6 h7 h8 h9
    h10, d_fuselage_mass__pylon_len _ _ _ _ _ _ _ _ _ _ _ h0 h1 h2 h3 h4 h5 h6 h7 h8 h9 h10,
    d_fuselage_mass__min_dive_vel _ _ _ _ _ _ _ _ _ _ _ h0 h1 h2 h3 h4 h5 h6 h7 h8 h9 h10,
    d_fuselage_mass__fuselage_pressure_differential _ _ _ _ _ _ _ _ _ _ _ h0 h1 h2 h3 h4 h5 h6 h7
    h8 h9 h10, d_fuselage_mass__wing_ultimate_load_factor _ _ _ _ _ _ _ _ _ _ _ h0 h1 h2 h3 h4 h5
    h6 h7 h8 h9 h10⟩

example : ∃ fuselage_mass_scaler fus_mass_full fuselage_mass_coefficient fuselage_wetted_area
      fuselage_avg_diameter tailboom_length pylon_len min_dive_vel fuselage_pressure_differential
      wing_ultimate_load_factor mat : ℝ,
      0 < fus_mass_full ∧
      0 < tailboom_length ∧
      0 < pylon_len ∧
      0 < min_dive_vel ∧
      log 10 ≠ 0 ∧
      0 < fuselage_pressure_differential ∧
      0 < wing_ultimate_load_factor ∧
      0 < fuselage_wetted_area ∧
      0 < fuselage_avg_diameter ∧
      0 < log min_dive_vel ∧
      0 < log 10 ∧
      0 < fuselage_mass_scaler :=
  ⟨2, 1, 0, 2, 1, 1, 2, 2, 1, 2, 0, by comp_example, by comp_example, by comp_example, by
    comp_example, by comp_example, by comp_example, by comp_example, by comp_example, by
    comp_example, by comp_example, by comp_example, by comp_example⟩

/-- The entry for `fuselage_mass` by `mat` leaves out the factor `fuselage_mass_scaler`: where it is not zero it cannot be the
derivative both for `fuselage_mass_scaler = 1` and for `fuselage_mass_scaler = 2`. -/
theorem J_fuselage_mass__mat_violated (fus_mass_full fuselage_mass_coefficient
    fuselage_wetted_area fuselage_avg_diameter tailboom_length pylon_len min_dive_vel
    fuselage_pressure_differential wing_ultimate_load_factor mat : ℝ) (hJ : J_fuselage_mass__mat
    ≠ 0) :
    ¬ (HasDerivAt (fun t => out_fuselage_mass 1 fus_mass_full fuselage_mass_coefficient
      fuselage_wetted_area fuselage_avg_diameter tailboom_length pylon_len min_dive_vel
      fuselage_pressure_differential wing_ultimate_load_factor t) (J_fuselage_mass__mat ) mat ∧
      HasDerivAt (fun t => out_fuselage_mass 2 fus_mass_full fuselage_mass_coefficient
      fuselage_wetted_area fuselage_avg_diameter tailboom_length pylon_len min_dive_vel
      fuselage_pressure_differential wing_ultimate_load_factor t) (J_fuselage_mass__mat ) mat) :=
      by
  rintro ⟨h1, h2⟩
  have e : (fun t => out_fuselage_mass 2 fus_mass_full fuselage_mass_coefficient
      fuselage_wetted_area fuselage_avg_diameter tailboom_length pylon_len min_dive_vel
      fuselage_pressure_differential wing_ultimate_load_factor t) = fun t => 2 * out_fuselage_mass
      1 fus_mass_full fuselage_mass_coefficient fuselage_wetted_area fuselage_avg_diameter
      tailboom_length pylon_len min_dive_vel fuselage_pressure_differential
      wing_ultimate_load_factor t := by
    funext t; simp only [out_fuselage_mass, fus_wt]; ring
  rw [e] at h2
  have := h2.unique (h1.const_mul 2)
  exact hJ (by linarith)

example : J_fuselage_mass__mat  ≠ 0 := by
  simp only [J_fuselage_mass__mat]
  first | positivity | (norm_num; done) | (norm_num; positivity)

end Verif.Comp.MassGaspBasedFuel.FuselageMass

