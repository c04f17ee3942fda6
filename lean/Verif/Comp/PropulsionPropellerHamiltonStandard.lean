import Verif.Lemmas.CompDeriv

/-! # Partial derivatives of the components of `aviary/subsystems/propulsion/propeller/hamilton_standard.py`

One node of a vector component is modelled over the real numbers.  Each option that selects a
branch is fixed, one namespace per choice.  `out_x` is the output `x`, `J_x__y` the entry that
`compute_partials` (or `declare_partials` with `val`) assigns, `d_x__y` the proof that the entry is
the derivative.  Inputs an output does not take as argument have no influence on it. -/

set_option linter.all false

namespace Verif.Comp.PropulsionPropellerHamiltonStandard.PostHamiltonStandard
open Real

/-- aviary/subsystems/propulsion/propeller/hamilton_standard.py:1030 -/
noncomputable abbrev ctx (thrust_coefficient comp_tip_loss_factor : ℝ) : ℝ :=
  thrust_coefficient * comp_tip_loss_factor

/-- aviary/subsystems/propulsion/propeller/hamilton_standard.py:1036 -/
noncomputable abbrev density_ratio (sea_level_density atmosphere_density : ℝ) : ℝ :=
  atmosphere_density / sea_level_density

/-- aviary/subsystems/propulsion/propeller/hamilton_standard.py:1050 -/
noncomputable abbrev prop_eff (thrust_coefficient comp_tip_loss_factor power_coefficient advance_ratio : ℝ) : ℝ :=
  if (1 / 1000000) < power_coefficient then ((advance_ratio * (ctx thrust_coefficient
    comp_tip_loss_factor)) / power_coefficient) else 0

/-- aviary/subsystems/propulsion/propeller/hamilton_standard.py:1133 -/
noncomputable abbrev deriv_propeff_adv (thrust_coefficient comp_tip_loss_factor power_coefficient : ℝ) : ℝ :=
  if (1 / 1000000) < power_coefficient then ((ctx thrust_coefficient comp_tip_loss_factor) /
    power_coefficient) else 0

/-- aviary/subsystems/propulsion/propeller/hamilton_standard.py:1134 -/
noncomputable abbrev deriv_propeff_ct (comp_tip_loss_factor power_coefficient advance_ratio : ℝ) : ℝ :=
  if (1 / 1000000) < power_coefficient then ((advance_ratio * comp_tip_loss_factor) /
    power_coefficient) else 0

/-- aviary/subsystems/propulsion/propeller/hamilton_standard.py:1135 -/
noncomputable abbrev deriv_propeff_tip (thrust_coefficient power_coefficient advance_ratio : ℝ) : ℝ :=
  if (1 / 1000000) < power_coefficient then ((advance_ratio * thrust_coefficient) /
    power_coefficient) else 0

/-- aviary/subsystems/propulsion/propeller/hamilton_standard.py:1138 -/
noncomputable abbrev deriv_propeff_cp (thrust_coefficient comp_tip_loss_factor power_coefficient advance_ratio : ℝ) : ℝ :=
  if (1 / 1000000) < power_coefficient then (((-advance_ratio) * (ctx thrust_coefficient
    comp_tip_loss_factor)) / (power_coefficient ^ 2)) else 0

/-- aviary/subsystems/propulsion/propeller/hamilton_standard.py:1151 -/
noncomputable abbrev deriv_insteff_adv (thrust_coefficient comp_tip_loss_factor install_loss_factor power_coefficient : ℝ) : ℝ :=
  if (1 / 1000000) < power_coefficient then (((ctx thrust_coefficient comp_tip_loss_factor) /
    power_coefficient) * (1 - install_loss_factor)) else 0

/-- aviary/subsystems/propulsion/propeller/hamilton_standard.py:1154 -/
noncomputable abbrev deriv_insteff_ct (comp_tip_loss_factor install_loss_factor power_coefficient advance_ratio : ℝ) : ℝ :=
  if (1 / 1000000) < power_coefficient then (((advance_ratio * comp_tip_loss_factor) /
    power_coefficient) * (1 - install_loss_factor)) else 0

/-- aviary/subsystems/propulsion/propeller/hamilton_standard.py:1160 -/
noncomputable abbrev deriv_insteff_tip (thrust_coefficient install_loss_factor power_coefficient advance_ratio : ℝ) : ℝ :=
  if (1 / 1000000) < power_coefficient then (((advance_ratio * thrust_coefficient) /
    power_coefficient) * (1 - install_loss_factor)) else 0

/-- aviary/subsystems/propulsion/propeller/hamilton_standard.py:1166 -/
noncomputable abbrev deriv_insteff_cp (thrust_coefficient comp_tip_loss_factor install_loss_factor power_coefficient advance_ratio : ℝ) : ℝ :=
  if (1 / 1000000) < power_coefficient then ((((-advance_ratio) * (ctx thrust_coefficient
    comp_tip_loss_factor)) / (power_coefficient ^ 2)) * (1 - install_loss_factor)) else 0

/-- aviary/subsystems/propulsion/propeller/hamilton_standard.py:1172 -/
noncomputable abbrev deriv_insteff_lf (thrust_coefficient comp_tip_loss_factor power_coefficient advance_ratio : ℝ) : ℝ :=
  if (1 / 1000000) < power_coefficient then (((-advance_ratio) * (ctx thrust_coefficient
    comp_tip_loss_factor)) / power_coefficient) else 0

/-- Output `thrust_coefficient_comp_loss` of `PostHamiltonStandard.compute`, aviary/subsystems/propulsion/propeller/hamilton_standard.py:1031 -/
noncomputable def out_thrust_coefficient_comp_loss (thrust_coefficient comp_tip_loss_factor : ℝ) : ℝ :=
  ctx thrust_coefficient comp_tip_loss_factor

/-- Output `vehicle_propulsion_thrust` of `PostHamiltonStandard.compute`, aviary/subsystems/propulsion/propeller/hamilton_standard.py:1037 -/
noncomputable def out_vehicle_propulsion_thrust (sea_level_density thrust_coefficient comp_tip_loss_factor engine_propeller_diameter vehicle_propulsion_propeller_tip_speed install_loss_factor atmosphere_density : ℝ) : ℝ :=
  ((((((ctx thrust_coefficient comp_tip_loss_factor) * (vehicle_propulsion_propeller_tip_speed ^
    2)) * (engine_propeller_diameter ^ 2)) * (density_ratio sea_level_density
    atmosphere_density)) / 1515000) * (9119 / 25)) * (1 - install_loss_factor)

/-- Output `propeller_efficiency` of `PostHamiltonStandard.compute`, aviary/subsystems/propulsion/propeller/hamilton_standard.py:1055 -/
noncomputable def out_propeller_efficiency (thrust_coefficient comp_tip_loss_factor power_coefficient advance_ratio : ℝ) : ℝ :=
  prop_eff thrust_coefficient comp_tip_loss_factor power_coefficient advance_ratio

/-- Output `install_efficiency` of `PostHamiltonStandard.compute`, aviary/subsystems/propulsion/propeller/hamilton_standard.py:1056 -/
noncomputable def out_install_efficiency (thrust_coefficient comp_tip_loss_factor install_loss_factor power_coefficient advance_ratio : ℝ) : ℝ :=
  (prop_eff thrust_coefficient comp_tip_loss_factor power_coefficient advance_ratio) * (1 -
    install_loss_factor)

/-- Partial of `thrust_coefficient_comp_loss` with respect to `thrust_coefficient` as set by `PostHamiltonStandard`, aviary/subsystems/propulsion/propeller/hamilton_standard.py:1072 -/
noncomputable def J_thrust_coefficient_comp_loss__thrust_coefficient (comp_tip_loss_factor : ℝ) : ℝ :=
  comp_tip_loss_factor

/-- Partial of `thrust_coefficient_comp_loss` with respect to `comp_tip_loss_factor` as set by `PostHamiltonStandard`, aviary/subsystems/propulsion/propeller/hamilton_standard.py:1073 -/
noncomputable def J_thrust_coefficient_comp_loss__comp_tip_loss_factor (thrust_coefficient : ℝ) : ℝ :=
  thrust_coefficient

/-- Partial of `vehicle_propulsion_thrust` with respect to `thrust_coefficient` as set by `PostHamiltonStandard`, aviary/subsystems/propulsion/propeller/hamilton_standard.py:1076 -/
noncomputable def J_vehicle_propulsion_thrust__thrust_coefficient (sea_level_density comp_tip_loss_factor engine_propeller_diameter vehicle_propulsion_propeller_tip_speed install_loss_factor atmosphere_density : ℝ) : ℝ :=
  ((((comp_tip_loss_factor * (vehicle_propulsion_propeller_tip_speed ^ 2)) *
    (engine_propeller_diameter ^ 2)) * (density_ratio sea_level_density atmosphere_density)) *
    (9119 / 37875000)) * (1 - install_loss_factor)

/-- Partial of `vehicle_propulsion_thrust` with respect to `comp_tip_loss_factor` as set by `PostHamiltonStandard`, aviary/subsystems/propulsion/propeller/hamilton_standard.py:1084 -/
noncomputable def J_vehicle_propulsion_thrust__comp_tip_loss_factor (sea_level_density thrust_coefficient engine_propeller_diameter vehicle_propulsion_propeller_tip_speed install_loss_factor atmosphere_density : ℝ) : ℝ :=
  ((((thrust_coefficient * (vehicle_propulsion_propeller_tip_speed ^ 2)) *
    (engine_propeller_diameter ^ 2)) * (density_ratio sea_level_density atmosphere_density)) *
    (9119 / 37875000)) * (1 - install_loss_factor)

/-- Partial of `vehicle_propulsion_thrust` with respect to `vehicle_propulsion_propeller_tip_speed` as set by `PostHamiltonStandard`, aviary/subsystems/propulsion/propeller/hamilton_standard.py:1092 -/
noncomputable def J_vehicle_propulsion_thrust__vehicle_propulsion_propeller_tip_speed (sea_level_density thrust_coefficient comp_tip_loss_factor engine_propeller_diameter vehicle_propulsion_propeller_tip_speed install_loss_factor atmosphere_density : ℝ) : ℝ :=
  (((((2 * (ctx thrust_coefficient comp_tip_loss_factor)) *
    vehicle_propulsion_propeller_tip_speed) * (engine_propeller_diameter ^ 2)) * (density_ratio
    sea_level_density atmosphere_density)) * (9119 / 37875000)) * (1 - install_loss_factor)

/-- Partial of `vehicle_propulsion_thrust` with respect to `engine_propeller_diameter` as set by `PostHamiltonStandard`, aviary/subsystems/propulsion/propeller/hamilton_standard.py:1103 -/
noncomputable def J_vehicle_propulsion_thrust__engine_propeller_diameter (sea_level_density thrust_coefficient comp_tip_loss_factor engine_propeller_diameter vehicle_propulsion_propeller_tip_speed install_loss_factor atmosphere_density : ℝ) : ℝ :=
  (((((2 * (ctx thrust_coefficient comp_tip_loss_factor)) *
    (vehicle_propulsion_propeller_tip_speed ^ 2)) * engine_propeller_diameter) * (density_ratio
    sea_level_density atmosphere_density)) * (9119 / 37875000)) * (1 - install_loss_factor)

/-- Partial of `vehicle_propulsion_thrust` with respect to `atmosphere_density` as set by `PostHamiltonStandard`, aviary/subsystems/propulsion/propeller/hamilton_standard.py:1112 -/
noncomputable def J_vehicle_propulsion_thrust__atmosphere_density (sea_level_density thrust_coefficient comp_tip_loss_factor engine_propeller_diameter vehicle_propulsion_propeller_tip_speed install_loss_factor : ℝ) : ℝ :=
  (((((ctx thrust_coefficient comp_tip_loss_factor) * (vehicle_propulsion_propeller_tip_speed ^
    2)) * (engine_propeller_diameter ^ 2)) * (9119 / 37875000)) * (1 - install_loss_factor)) /
    sea_level_density

/-- Partial of `vehicle_propulsion_thrust` with respect to `install_loss_factor` as set by `PostHamiltonStandard`, aviary/subsystems/propulsion/propeller/hamilton_standard.py:1120 -/
noncomputable def J_vehicle_propulsion_thrust__install_loss_factor (sea_level_density thrust_coefficient comp_tip_loss_factor engine_propeller_diameter vehicle_propulsion_propeller_tip_speed atmosphere_density : ℝ) : ℝ :=
  ((((-(ctx thrust_coefficient comp_tip_loss_factor)) * (vehicle_propulsion_propeller_tip_speed
    ^ 2)) * (engine_propeller_diameter ^ 2)) * (density_ratio sea_level_density
    atmosphere_density)) * (9119 / 37875000)

/-- Partial of `propeller_efficiency` with respect to `advance_ratio` as set by `PostHamiltonStandard`, aviary/subsystems/propulsion/propeller/hamilton_standard.py:1140 -/
noncomputable def J_propeller_efficiency__advance_ratio (thrust_coefficient comp_tip_loss_factor power_coefficient : ℝ) : ℝ :=
  deriv_propeff_adv thrust_coefficient comp_tip_loss_factor power_coefficient

/-- Partial of `propeller_efficiency` with respect to `thrust_coefficient` as set by `PostHamiltonStandard`, aviary/subsystems/propulsion/propeller/hamilton_standard.py:1141 -/
noncomputable def J_propeller_efficiency__thrust_coefficient (comp_tip_loss_factor power_coefficient advance_ratio : ℝ) : ℝ :=
  deriv_propeff_ct comp_tip_loss_factor power_coefficient advance_ratio

/-- Partial of `propeller_efficiency` with respect to `comp_tip_loss_factor` as set by `PostHamiltonStandard`, aviary/subsystems/propulsion/propeller/hamilton_standard.py:1142 -/
noncomputable def J_propeller_efficiency__comp_tip_loss_factor (thrust_coefficient power_coefficient advance_ratio : ℝ) : ℝ :=
  deriv_propeff_tip thrust_coefficient power_coefficient advance_ratio

/-- Partial of `propeller_efficiency` with respect to `power_coefficient` as set by `PostHamiltonStandard`, aviary/subsystems/propulsion/propeller/hamilton_standard.py:1143 -/
noncomputable def J_propeller_efficiency__power_coefficient (thrust_coefficient comp_tip_loss_factor power_coefficient advance_ratio : ℝ) : ℝ :=
  deriv_propeff_cp thrust_coefficient comp_tip_loss_factor power_coefficient advance_ratio

/-- Partial of `install_efficiency` with respect to `advance_ratio` as set by `PostHamiltonStandard`, aviary/subsystems/propulsion/propeller/hamilton_standard.py:1174 -/
noncomputable def J_install_efficiency__advance_ratio (thrust_coefficient comp_tip_loss_factor install_loss_factor power_coefficient : ℝ) : ℝ :=
  deriv_insteff_adv thrust_coefficient comp_tip_loss_factor install_loss_factor
    power_coefficient

/-- Partial of `install_efficiency` with respect to `thrust_coefficient` as set by `PostHamiltonStandard`, aviary/subsystems/propulsion/propeller/hamilton_standard.py:1175 -/
noncomputable def J_install_efficiency__thrust_coefficient (comp_tip_loss_factor install_loss_factor power_coefficient advance_ratio : ℝ) : ℝ :=
  deriv_insteff_ct comp_tip_loss_factor install_loss_factor power_coefficient advance_ratio

/-- Partial of `install_efficiency` with respect to `comp_tip_loss_factor` as set by `PostHamiltonStandard`, aviary/subsystems/propulsion/propeller/hamilton_standard.py:1176 -/
noncomputable def J_install_efficiency__comp_tip_loss_factor (thrust_coefficient install_loss_factor power_coefficient advance_ratio : ℝ) : ℝ :=
  deriv_insteff_tip thrust_coefficient install_loss_factor power_coefficient advance_ratio

/-- Partial of `install_efficiency` with respect to `power_coefficient` as set by `PostHamiltonStandard`, aviary/subsystems/propulsion/propeller/hamilton_standard.py:1177 -/
noncomputable def J_install_efficiency__power_coefficient (thrust_coefficient comp_tip_loss_factor install_loss_factor power_coefficient advance_ratio : ℝ) : ℝ :=
  deriv_insteff_cp thrust_coefficient comp_tip_loss_factor install_loss_factor power_coefficient
    advance_ratio

/-- Partial of `install_efficiency` with respect to `install_loss_factor` as set by `PostHamiltonStandard`, aviary/subsystems/propulsion/propeller/hamilton_standard.py:1178 -/
noncomputable def J_install_efficiency__install_loss_factor (thrust_coefficient comp_tip_loss_factor power_coefficient advance_ratio : ℝ) : ℝ :=
  deriv_insteff_lf thrust_coefficient comp_tip_loss_factor power_coefficient advance_ratio

theorem d_thrust_coefficient_comp_loss__thrust_coefficient (thrust_coefficient
    comp_tip_loss_factor : ℝ)  :
    HasDerivAt (fun t => out_thrust_coefficient_comp_loss t comp_tip_loss_factor) (J_thrust_coefficient_comp_loss__thrust_coefficient comp_tip_loss_factor) thrust_coefficient := by
  simp only [out_thrust_coefficient_comp_loss, J_thrust_coefficient_comp_loss__thrust_coefficient, ctx]
  (apply hasDerivAt_of_eq; on_goal 1 => (repeat' comp_step))
  all_goals try comp_side
  all_goals try simp only [mul_zero, zero_mul, add_zero, zero_add, sub_zero, zero_sub, mul_one, one_mul]
  all_goals try push_cast
  all_goals comp_eq

theorem d_thrust_coefficient_comp_loss__comp_tip_loss_factor (thrust_coefficient
    comp_tip_loss_factor : ℝ)  :
    HasDerivAt (fun t => out_thrust_coefficient_comp_loss thrust_coefficient t) (J_thrust_coefficient_comp_loss__comp_tip_loss_factor thrust_coefficient) comp_tip_loss_factor := by
  simp only [out_thrust_coefficient_comp_loss, J_thrust_coefficient_comp_loss__comp_tip_loss_factor, ctx]
  (apply hasDerivAt_of_eq; on_goal 1 => (repeat' comp_step))
  all_goals try comp_side
  all_goals try simp only [mul_zero, zero_mul, add_zero, zero_add, sub_zero, zero_sub, mul_one, one_mul]
  all_goals try push_cast
  all_goals comp_eq

theorem d_vehicle_propulsion_thrust__thrust_coefficient (sea_level_density thrust_coefficient
    comp_tip_loss_factor engine_propeller_diameter vehicle_propulsion_propeller_tip_speed
    install_loss_factor atmosphere_density : ℝ) (h0 : 0 < sea_level_density) :
    HasDerivAt (fun t => out_vehicle_propulsion_thrust sea_level_density t comp_tip_loss_factor engine_propeller_diameter vehicle_propulsion_propeller_tip_speed install_loss_factor atmosphere_density) (J_vehicle_propulsion_thrust__thrust_coefficient sea_level_density comp_tip_loss_factor engine_propeller_diameter vehicle_propulsion_propeller_tip_speed install_loss_factor atmosphere_density) thrust_coefficient := by
  simp only [out_vehicle_propulsion_thrust, J_vehicle_propulsion_thrust__thrust_coefficient, density_ratio, ctx]
  (apply hasDerivAt_of_eq; on_goal 1 => (repeat' comp_step))
  all_goals try comp_side
  all_goals try simp only [mul_zero, zero_mul, add_zero, zero_add, sub_zero, zero_sub, mul_one, one_mul]
  all_goals try push_cast
  all_goals comp_eq

theorem d_vehicle_propulsion_thrust__comp_tip_loss_factor (sea_level_density thrust_coefficient
    comp_tip_loss_factor engine_propeller_diameter vehicle_propulsion_propeller_tip_speed
    install_loss_factor atmosphere_density : ℝ) (h0 : 0 < sea_level_density) :
    HasDerivAt (fun t => out_vehicle_propulsion_thrust sea_level_density thrust_coefficient t engine_propeller_diameter vehicle_propulsion_propeller_tip_speed install_loss_factor atmosphere_density) (J_vehicle_propulsion_thrust__comp_tip_loss_factor sea_level_density thrust_coefficient engine_propeller_diameter vehicle_propulsion_propeller_tip_speed install_loss_factor atmosphere_density) comp_tip_loss_factor := by
  simp only [out_vehicle_propulsion_thrust, J_vehicle_propulsion_thrust__comp_tip_loss_factor, density_ratio, ctx]
  (apply hasDerivAt_of_eq; on_goal 1 => (repeat' comp_step))
  all_goals try comp_side
  all_goals try simp only [mul_zero, zero_mul, add_zero, zero_add, sub_zero, zero_sub, mul_one, one_mul]
  all_goals try push_cast
  all_goals comp_eq

theorem d_vehicle_propulsion_thrust__engine_propeller_diameter (sea_level_density
    thrust_coefficient comp_tip_loss_factor engine_propeller_diameter
    vehicle_propulsion_propeller_tip_speed install_loss_factor atmosphere_density : ℝ) (h0 : 0 <
    sea_level_density) :
    HasDerivAt (fun t => out_vehicle_propulsion_thrust sea_level_density thrust_coefficient comp_tip_loss_factor t vehicle_propulsion_propeller_tip_speed install_loss_factor atmosphere_density) (J_vehicle_propulsion_thrust__engine_propeller_diameter sea_level_density thrust_coefficient comp_tip_loss_factor engine_propeller_diameter vehicle_propulsion_propeller_tip_speed install_loss_factor atmosphere_density) engine_propeller_diameter := by
  simp only [out_vehicle_propulsion_thrust, J_vehicle_propulsion_thrust__engine_propeller_diameter, density_ratio, ctx]
  (apply hasDerivAt_of_eq; on_goal 1 => (repeat' comp_step))
  all_goals try comp_side
  all_goals try simp only [mul_zero, zero_mul, add_zero, zero_add, sub_zero, zero_sub, mul_one, one_mul]
  all_goals try push_cast
  all_goals comp_eq

theorem d_vehicle_propulsion_thrust__vehicle_propulsion_propeller_tip_speed (sea_level_density
    thrust_coefficient comp_tip_loss_factor engine_propeller_diameter
    vehicle_propulsion_propeller_tip_speed install_loss_factor atmosphere_density : ℝ) (h0 : 0 <
    sea_level_density) :
    HasDerivAt (fun t => out_vehicle_propulsion_thrust sea_level_density thrust_coefficient comp_tip_loss_factor engine_propeller_diameter t install_loss_factor atmosphere_density) (J_vehicle_propulsion_thrust__vehicle_propulsion_propeller_tip_speed sea_level_density thrust_coefficient comp_tip_loss_factor engine_propeller_diameter vehicle_propulsion_propeller_tip_speed install_loss_factor atmosphere_density) vehicle_propulsion_propeller_tip_speed := by
  simp only [out_vehicle_propulsion_thrust, J_vehicle_propulsion_thrust__vehicle_propulsion_propeller_tip_speed, density_ratio, ctx]
  (apply hasDerivAt_of_eq; on_goal 1 => (repeat' comp_step))
  all_goals try comp_side
  all_goals try simp only [mul_zero, zero_mul, add_zero, zero_add, sub_zero, zero_sub, mul_one, one_mul]
  all_goals try push_cast
  all_goals comp_eq

theorem d_vehicle_propulsion_thrust__install_loss_factor (sea_level_density thrust_coefficient
    comp_tip_loss_factor engine_propeller_diameter vehicle_propulsion_propeller_tip_speed
    install_loss_factor atmosphere_density : ℝ) (h0 : 0 < sea_level_density) :
    HasDerivAt (fun t => out_vehicle_propulsion_thrust sea_level_density thrust_coefficient comp_tip_loss_factor engine_propeller_diameter vehicle_propulsion_propeller_tip_speed t atmosphere_density) (J_vehicle_propulsion_thrust__install_loss_factor sea_level_density thrust_coefficient comp_tip_loss_factor engine_propeller_diameter vehicle_propulsion_propeller_tip_speed atmosphere_density) install_loss_factor := by
  simp only [out_vehicle_propulsion_thrust, J_vehicle_propulsion_thrust__install_loss_factor, density_ratio, ctx]
  (apply hasDerivAt_of_eq; on_goal 1 => (repeat' comp_step))
  all_goals try comp_side
  all_goals try simp only [mul_zero, zero_mul, add_zero, zero_add, sub_zero, zero_sub, mul_one, one_mul]
  all_goals try push_cast
  all_goals comp_eq

theorem d_vehicle_propulsion_thrust__atmosphere_density (sea_level_density thrust_coefficient
    comp_tip_loss_factor engine_propeller_diameter vehicle_propulsion_propeller_tip_speed
    install_loss_factor atmosphere_density : ℝ) (h0 : 0 < sea_level_density) :
    HasDerivAt (fun t => out_vehicle_propulsion_thrust sea_level_density thrust_coefficient comp_tip_loss_factor engine_propeller_diameter vehicle_propulsion_propeller_tip_speed install_loss_factor t) (J_vehicle_propulsion_thrust__atmosphere_density sea_level_density thrust_coefficient comp_tip_loss_factor engine_propeller_diameter vehicle_propulsion_propeller_tip_speed install_loss_factor) atmosphere_density := by
  simp only [out_vehicle_propulsion_thrust, J_vehicle_propulsion_thrust__atmosphere_density, density_ratio, ctx]
  (apply hasDerivAt_of_eq; on_goal 1 => (repeat' comp_step))
  all_goals try comp_side
  all_goals try simp only [mul_zero, zero_mul, add_zero, zero_add, sub_zero, zero_sub, mul_one, one_mul]
  all_goals try push_cast
  all_goals comp_eq

theorem d_propeller_efficiency__thrust_coefficient (thrust_coefficient comp_tip_loss_factor
    power_coefficient advance_ratio : ℝ) (h0 : 0 < power_coefficient) :
    HasDerivAt (fun t => out_propeller_efficiency t comp_tip_loss_factor power_coefficient advance_ratio) (J_propeller_efficiency__thrust_coefficient comp_tip_loss_factor power_coefficient advance_ratio) thrust_coefficient := by
  simp only [out_propeller_efficiency, J_propeller_efficiency__thrust_coefficient, deriv_propeff_ct, prop_eff, ctx]
  try split_ifs
  all_goals (apply hasDerivAt_of_eq; on_goal 1 => (repeat' comp_step))
  all_goals try comp_side
  all_goals try split_ifs
  all_goals try (exfalso; linarith)
  all_goals try simp only [mul_zero, zero_mul, add_zero, zero_add, sub_zero, zero_sub, mul_one, one_mul]
  all_goals try push_cast
  all_goals comp_eq

theorem d_propeller_efficiency__comp_tip_loss_factor (thrust_coefficient comp_tip_loss_factor
    power_coefficient advance_ratio : ℝ) (h0 : 0 < power_coefficient) :
    HasDerivAt (fun t => out_propeller_efficiency thrust_coefficient t power_coefficient advance_ratio) (J_propeller_efficiency__comp_tip_loss_factor thrust_coefficient power_coefficient advance_ratio) comp_tip_loss_factor := by
  simp only [out_propeller_efficiency, J_propeller_efficiency__comp_tip_loss_factor, deriv_propeff_tip, prop_eff, ctx]
  try split_ifs
  all_goals (apply hasDerivAt_of_eq; on_goal 1 => (repeat' comp_step))
  all_goals try comp_side
  all_goals try split_ifs
  all_goals try (exfalso; linarith)
  all_goals try simp only [mul_zero, zero_mul, add_zero, zero_add, sub_zero, zero_sub, mul_one, one_mul]
  all_goals try push_cast
  all_goals comp_eq

theorem d_propeller_efficiency__power_coefficient (thrust_coefficient comp_tip_loss_factor
    power_coefficient advance_ratio : ℝ) (h0 : power_coefficient ≠ 1 / 1000000) (h1 : 0 <
    power_coefficient) :
    HasDerivAt (fun t => out_propeller_efficiency thrust_coefficient comp_tip_loss_factor t advance_ratio) (J_propeller_efficiency__power_coefficient thrust_coefficient comp_tip_loss_factor power_coefficient advance_ratio) power_coefficient := by
  simp only [out_propeller_efficiency, J_propeller_efficiency__power_coefficient, deriv_propeff_cp, prop_eff, ctx]
  try split_ifs
  all_goals (apply hasDerivAt_of_eq; on_goal 1 => (repeat' comp_step))
  all_goals try comp_side
  all_goals try split_ifs
  all_goals try (exfalso; linarith)
  all_goals try simp only [mul_zero, zero_mul, add_zero, zero_add, sub_zero, zero_sub, mul_one, one_mul]
  all_goals try push_cast
  all_goals comp_eq

theorem d_propeller_efficiency__advance_ratio (thrust_coefficient comp_tip_loss_factor
    power_coefficient advance_ratio : ℝ) (h0 : 0 < power_coefficient) :
    HasDerivAt (fun t => out_propeller_efficiency thrust_coefficient comp_tip_loss_factor power_coefficient t) (J_propeller_efficiency__advance_ratio thrust_coefficient comp_tip_loss_factor power_coefficient) advance_ratio := by
  simp only [out_propeller_efficiency, J_propeller_efficiency__advance_ratio, deriv_propeff_adv, prop_eff, ctx]
  try split_ifs
  all_goals (apply hasDerivAt_of_eq; on_goal 1 => (repeat' comp_step))
  all_goals try comp_side
  all_goals try split_ifs
  all_goals try (exfalso; linarith)
  all_goals try simp only [mul_zero, zero_mul, add_zero, zero_add, sub_zero, zero_sub, mul_one, one_mul]
  all_goals try push_cast
  all_goals comp_eq

theorem d_install_efficiency__thrust_coefficient (thrust_coefficient comp_tip_loss_factor
    install_loss_factor power_coefficient advance_ratio : ℝ) (h0 : 0 < power_coefficient) :
    HasDerivAt (fun t => out_install_efficiency t comp_tip_loss_factor install_loss_factor power_coefficient advance_ratio) (J_install_efficiency__thrust_coefficient comp_tip_loss_factor install_loss_factor power_coefficient advance_ratio) thrust_coefficient := by
  simp only [out_install_efficiency, J_install_efficiency__thrust_coefficient, deriv_insteff_ct, prop_eff, ctx]
  try split_ifs
  all_goals (apply hasDerivAt_of_eq; on_goal 1 => (repeat' comp_step))
  all_goals try comp_side
  all_goals try split_ifs
  all_goals try (exfalso; linarith)
  all_goals try simp only [mul_zero, zero_mul, add_zero, zero_add, sub_zero, zero_sub, mul_one, one_mul]
  all_goals try push_cast
  all_goals comp_eq

theorem d_install_efficiency__comp_tip_loss_factor (thrust_coefficient comp_tip_loss_factor
    install_loss_factor power_coefficient advance_ratio : ℝ) (h0 : 0 < power_coefficient) :
    HasDerivAt (fun t => out_install_efficiency thrust_coefficient t install_loss_factor power_coefficient advance_ratio) (J_install_efficiency__comp_tip_loss_factor thrust_coefficient install_loss_factor power_coefficient advance_ratio) comp_tip_loss_factor := by
  simp only [out_install_efficiency, J_install_efficiency__comp_tip_loss_factor, deriv_insteff_tip, prop_eff, ctx]
  try split_ifs
  all_goals (apply hasDerivAt_of_eq; on_goal 1 => (repeat' comp_step))
  all_goals try comp_side
  all_goals try split_ifs
  all_goals try (exfalso; linarith)
  all_goals try simp only [mul_zero, zero_mul, add_zero, zero_add, sub_zero, zero_sub, mul_one, one_mul]
  all_goals try push_cast
  all_goals comp_eq

theorem d_install_efficiency__install_loss_factor (thrust_coefficient comp_tip_loss_factor
    install_loss_factor power_coefficient advance_ratio : ℝ) (h0 : 0 < power_coefficient) :
    HasDerivAt (fun t => out_install_efficiency thrust_coefficient comp_tip_loss_factor t power_coefficient advance_ratio) (J_install_efficiency__install_loss_factor thrust_coefficient comp_tip_loss_factor power_coefficient advance_ratio) install_loss_factor := by
  simp only [out_install_efficiency, J_install_efficiency__install_loss_factor, deriv_insteff_lf, prop_eff, ctx]
  try split_ifs
  all_goals (apply hasDerivAt_of_eq; on_goal 1 => (repeat' comp_step))
  all_goals try comp_side
  all_goals try split_ifs
  all_goals try (exfalso; linarith)
  all_goals try simp only [mul_zero, zero_mul, add_zero, zero_add, sub_zero, zero_sub, mul_one, one_mul]
  all_goals try push_cast
  all_goals comp_eq

theorem d_install_efficiency__power_coefficient (thrust_coefficient comp_tip_loss_factor
    install_loss_factor power_coefficient advance_ratio : ℝ) (h0 : power_coefficient ≠ 1 /
    1000000) (h1 : 0 < power_coefficient) :
    HasDerivAt (fun t => out_install_efficiency thrust_coefficient comp_tip_loss_factor install_loss_factor t advance_ratio) (J_install_efficiency__power_coefficient thrust_coefficient comp_tip_loss_factor install_loss_factor power_coefficient advance_ratio) power_coefficient := by
  simp only [out_install_efficiency, J_install_efficiency__power_coefficient, deriv_insteff_cp, prop_eff, ctx]
  try split_ifs
  all_goals (apply hasDerivAt_of_eq; on_goal 1 => (repeat' comp_step))
  all_goals try comp_side
  all_goals try split_ifs
  all_goals try (exfalso; linarith)
  all_goals try simp only [mul_zero, zero_mul, add_zero, zero_add, sub_zero, zero_sub, mul_one, one_mul]
  all_goals try push_cast
  all_goals comp_eq

theorem d_install_efficiency__advance_ratio (thrust_coefficient comp_tip_loss_factor
    install_loss_factor power_coefficient advance_ratio : ℝ) (h0 : 0 < power_coefficient) :
    HasDerivAt (fun t => out_install_efficiency thrust_coefficient comp_tip_loss_factor install_loss_factor power_coefficient t) (J_install_efficiency__advance_ratio thrust_coefficient comp_tip_loss_factor install_loss_factor power_coefficient) advance_ratio := by
  simp only [out_install_efficiency, J_install_efficiency__advance_ratio, deriv_insteff_adv, prop_eff, ctx]
  try split_ifs
  all_goals (apply hasDerivAt_of_eq; on_goal 1 => (repeat' comp_step))
  all_goals try comp_side
  all_goals try split_ifs
  all_goals try (exfalso; linarith)
  all_goals try simp only [mul_zero, zero_mul, add_zero, zero_add, sub_zero, zero_sub, mul_one, one_mul]
  all_goals try push_cast
  all_goals comp_eq

/-- Every partial derivative set by `PostHamiltonStandard` is the derivative of its output. -/
theorem partials (sea_level_density thrust_coefficient comp_tip_loss_factor
    engine_propeller_diameter vehicle_propulsion_propeller_tip_speed install_loss_factor
    atmosphere_density power_coefficient advance_ratio : ℝ) (h0 : 0 < sea_level_density) (h1 : 0 <
    power_coefficient) (h2 : power_coefficient ≠ 1 / 1000000) :
    HasDerivAt (fun t => out_thrust_coefficient_comp_loss t comp_tip_loss_factor)
      (J_thrust_coefficient_comp_loss__thrust_coefficient comp_tip_loss_factor) thrust_coefficient ∧
    HasDerivAt (fun t => out_thrust_coefficient_comp_loss thrust_coefficient t)
      (J_thrust_coefficient_comp_loss__comp_tip_loss_factor thrust_coefficient)
      comp_tip_loss_factor ∧
    HasDerivAt (fun t => out_vehicle_propulsion_thrust sea_level_density t comp_tip_loss_factor
      engine_propeller_diameter vehicle_propulsion_propeller_tip_speed install_loss_factor
      atmosphere_density) (J_vehicle_propulsion_thrust__thrust_coefficient sea_level_density
      comp_tip_loss_factor engine_propeller_diameter vehicle_propulsion_propeller_tip_speed
      install_loss_factor atmosphere_density) thrust_coefficient ∧
    HasDerivAt (fun t => out_vehicle_propulsion_thrust sea_level_density thrust_coefficient t
      engine_propeller_diameter vehicle_propulsion_propeller_tip_speed install_loss_factor
      atmosphere_density) (J_vehicle_propulsion_thrust__comp_tip_loss_factor sea_level_density
      thrust_coefficient engine_propeller_diameter vehicle_propulsion_propeller_tip_speed
      install_loss_factor atmosphere_density) comp_tip_loss_factor ∧
    HasDerivAt (fun t => out_vehicle_propulsion_thrust sea_level_density thrust_coefficient
      comp_tip_loss_factor t vehicle_propulsion_propeller_tip_speed install_loss_factor
      atmosphere_density) (J_vehicle_propulsion_thrust__engine_propeller_diameter
      sea_level_density thrust_coefficient comp_tip_loss_factor engine_propeller_diameter
      vehicle_propulsion_propeller_tip_speed install_loss_factor atmosphere_density)
      engine_propeller_diameter ∧
    HasDerivAt (fun t => out_vehicle_propulsion_thrust sea_level_density thrust_coefficient
      comp_tip_loss_factor engine_propeller_diameter t install_loss_factor atmosphere_density)
      (J_vehicle_propulsion_thrust__vehicle_propulsion_propeller_tip_speed sea_level_density
      thrust_coefficient comp_tip_loss_factor engine_propeller_diameter
      vehicle_propulsion_propeller_tip_speed install_loss_factor atmosphere_density)
      vehicle_propulsion_propeller_tip_speed ∧
    HasDerivAt (fun t => out_vehicle_propulsion_thrust sea_level_density thrust_coefficient
      comp_tip_loss_factor engine_propeller_diameter vehicle_propulsion_propeller_tip_speed t
      atmosphere_density) (J_vehicle_propulsion_thrust__install_loss_factor sea_level_density
      thrust_coefficient comp_tip_loss_factor engine_propeller_diameter
      vehicle_propulsion_propeller_tip_speed atmosphere_density) install_loss_factor ∧
    HasDerivAt (fun t => out_vehicle_propulsion_thrust sea_level_density thrust_coefficient
      comp_tip_loss_factor engine_propeller_diameter vehicle_propulsion_propeller_tip_speed
      install_loss_factor t) (J_vehicle_propulsion_thrust__atmosphere_density sea_level_density
      thrust_coefficient comp_tip_loss_factor engine_propeller_diameter
      vehicle_propulsion_propeller_tip_speed install_loss_factor) atmosphere_density ∧
    HasDerivAt (fun t => out_propeller_efficiency t comp_tip_loss_factor power_coefficient
      advance_ratio) (J_propeller_efficiency__thrust_coefficient comp_tip_loss_factor
      power_coefficient advance_ratio) thrust_coefficient ∧
    HasDerivAt (fun t => out_propeller_efficiency thrust_coefficient t power_coefficient
      advance_ratio) (J_propeller_efficiency__comp_tip_loss_factor thrust_coefficient
      power_coefficient advance_ratio) comp_tip_loss_factor ∧
    HasDerivAt (fun t => out_propeller_efficiency thrust_coefficient comp_tip_loss_factor t
      advance_ratio) (J_propeller_efficiency__power_coefficient thrust_coefficient
      comp_tip_loss_factor power_coefficient advance_ratio) power_coefficient ∧
    HasDerivAt (fun t => out_propeller_efficiency thrust_coefficient comp_tip_loss_factor
      power_coefficient t) (J_propeller_efficiency__advance_ratio thrust_coefficient
      comp_tip_loss_factor power_coefficient) advance_ratio ∧
    HasDerivAt (fun t => out_install_efficiency t comp_tip_loss_factor install_loss_factor
      power_coefficient advance_ratio) (J_install_efficiency__thrust_coefficient
      comp_tip_loss_factor install_loss_factor power_coefficient advance_ratio) thrust_coefficient ∧
    HasDerivAt (fun t => out_install_efficiency thrust_coefficient t install_loss_factor
      power_coefficient advance_ratio) (J_install_efficiency__comp_tip_loss_factor
      thrust_coefficient install_loss_factor power_coefficient advance_ratio) comp_tip_loss_factor ∧
    HasDerivAt (fun t => out_install_efficiency thrust_coefficient comp_tip_loss_factor t
      power_coefficient advance_ratio) (J_install_efficiency__install_loss_factor
      thrust_coefficient comp_tip_loss_factor power_coefficient advance_ratio) install_loss_factor ∧
    HasDerivAt (fun t => out_install_efficiency thrust_coefficient comp_tip_loss_factor
      install_loss_factor t advance_ratio) (J_install_efficiency__power_coefficient
      thrust_coefficient comp_tip_loss_factor install_loss_factor power_coefficient advance_ratio)
      power_coefficient ∧
    HasDerivAt (fun t => out_install_efficiency thrust_coefficient comp_tip_loss_factor
      install_loss_factor power_coefficient t) (J_install_efficiency__advance_ratio
      thrust_coefficient comp_tip_loss_factor install_loss_factor power_coefficient) advance_ratio :=
  ⟨d_thrust_coefficient_comp_loss__thrust_coefficient _ _,
    d_thrust_coefficient_comp_loss__comp_tip_loss_factor _ _,
    d_vehicle_propulsion_thrust__thrust_coefficient _ _ _ _ _ _ _ h0,
    d_vehicle_propulsion_thrust__comp_tip_loss_factor _ _ _ _ _ _ _ h0,
    d_vehicle_propulsion_thrust__engine_propeller_diameter _ _ _ _ _ _ _ h0,
    d_vehicle_propulsion_thrust__vehicle_propulsion_propeller_tip_speed _ _ _ _ _ _ _ h0,
    d_vehicle_propulsion_thrust__install_loss_factor _ _ _ _ _ _ _ h0,
    d_vehicle_propulsion_thrust__atmosphere_density _ _ _ _ _ _ _ h0,
    d_propeller_efficiency__thrust_coefficient _ _ _ _ h1,
    d_propeller_efficiency__comp_tip_loss_factor _ _ _ _ h1,
    d_propeller_efficiency__power_coefficient _ _ _ _ h2 h1, d_propeller_efficiency__advance_ratio
    _ _ _ _ h1, d_install_efficiency__thrust_coefficient _ _ _ _ _ h1,
    d_install_efficiency__comp_tip_loss_factor _ _ _ _ _ h1,
    d_install_efficiency__install_loss_factor _ _ _ _ _ h1,
    d_install_efficiency__power_coefficient _ _ _ _ _ h2 h1, d_install_efficiency__advance_ratio _
    _ _ _ _ h1⟩

example : ∃ sea_level_density thrust_coefficient comp_tip_loss_factor engine_propeller_diameter
      vehicle_propulsion_propeller_tip_speed install_loss_factor atmosphere_density
      power_coefficient advance_ratio : ℝ,
      0 < sea_level_density ∧
      0 < power_coefficient ∧
      power_coefficient ≠ 1 / 1000000 :=
  ⟨1, 0, 0, 0, 0, 0, 0, 1, 0, by comp_example, by comp_example, by comp_example⟩

end Verif.Comp.PropulsionPropellerHamiltonStandard.PostHamiltonStandard

