import Verif.Lemmas.CompDeriv

/-! # Partial derivatives of the components of `aviary/models/external_subsystems/detailed_battery/model/battery_premission.py`

One node of a vector component is modelled over the real numbers.  Each option that selects a
branch is fixed, one namespace per choice.  `out_x` is the output `x`, `J_x__y` the entry that
`compute_partials` (or `declare_partials` with `val`) assigns, `d_x__y` the proof that the entry is
the derivative.  Inputs an output does not take as argument have no influence on it. -/

set_option linter.all false

namespace Verif.Comp.ModelsExternalSubsystemsDetailedBatteryModelBatteryPremission.BatteryPreMission
open Real

/-- aviary/models/external_subsystems/detailed_battery/model/battery_premission.py:114 -/
noncomputable def n_s (battery_voltage battery_cell_voltage_low : ℝ) : ℝ :=
  battery_voltage / battery_cell_voltage_low

/-- aviary/models/external_subsystems/detailed_battery/model/battery_premission.py:115 -/
noncomputable def n_p (battery_current_max battery_cell_discharge_rate : ℝ) : ℝ :=
  battery_current_max / battery_cell_discharge_rate

/-- Output `battery_n_series` of `BatteryPreMission.compute`, aviary/models/external_subsystems/detailed_battery/model/battery_premission.py:86 -/
noncomputable def out_battery_n_series (battery_voltage battery_cell_voltage_low : ℝ) : ℝ :=
  battery_voltage / battery_cell_voltage_low

/-- Output `battery_n_parallel` of `BatteryPreMission.compute`, aviary/models/external_subsystems/detailed_battery/model/battery_premission.py:87 -/
noncomputable def out_battery_n_parallel (battery_current_max battery_cell_discharge_rate : ℝ) : ℝ :=
  battery_current_max / battery_cell_discharge_rate

/-- Output `battery_mass` of `BatteryPreMission.compute`, aviary/models/external_subsystems/detailed_battery/model/battery_premission.py:90 -/
noncomputable def out_battery_mass (battery_voltage battery_cell_voltage_low battery_current_max battery_cell_discharge_rate battery_cell_mass battery_case_weight_frac : ℝ) : ℝ :=
  (((battery_voltage / battery_cell_voltage_low) * (battery_current_max /
    battery_cell_discharge_rate)) * battery_cell_mass) * battery_case_weight_frac

/-- Output `battery_heat_capacity` of `BatteryPreMission.compute`, aviary/models/external_subsystems/detailed_battery/model/battery_premission.py:96 -/
noncomputable def out_battery_heat_capacity (battery_case_weight_frac battery_cell_heat_capacity battery_case_heat_capacity : ℝ) : ℝ :=
  (battery_cell_heat_capacity + (battery_case_heat_capacity * (1 - battery_case_weight_frac))) /
    battery_case_weight_frac

/-- Output `battery_volume` of `BatteryPreMission.compute`, aviary/models/external_subsystems/detailed_battery/model/battery_premission.py:101 -/
noncomputable def out_battery_volume (battery_voltage battery_cell_voltage_low battery_current_max battery_cell_discharge_rate battery_cell_volume : ℝ) : ℝ :=
  ((battery_voltage / battery_cell_voltage_low) * (battery_current_max /
    battery_cell_discharge_rate)) * battery_cell_volume

/-- Partial of `battery_n_series` with respect to `battery_voltage` as set by `BatteryPreMission`, aviary/models/external_subsystems/detailed_battery/model/battery_premission.py:121 -/
noncomputable def J_battery_n_series__battery_voltage (battery_cell_voltage_low : ℝ) : ℝ :=
  1 / battery_cell_voltage_low

/-- Partial of `battery_n_series` with respect to `battery_cell_voltage_low` as set by `BatteryPreMission`, aviary/models/external_subsystems/detailed_battery/model/battery_premission.py:122 -/
noncomputable def J_battery_n_series__battery_cell_voltage_low (battery_voltage battery_cell_voltage_low : ℝ) : ℝ :=
  (-battery_voltage) / (battery_cell_voltage_low ^ 2)

/-- Partial of `battery_n_parallel` with respect to `battery_current_max` as set by `BatteryPreMission`, aviary/models/external_subsystems/detailed_battery/model/battery_premission.py:124 -/
noncomputable def J_battery_n_parallel__battery_current_max (battery_cell_discharge_rate : ℝ) : ℝ :=
  1 / battery_cell_discharge_rate

/-- Partial of `battery_n_parallel` with respect to `battery_cell_discharge_rate` as set by `BatteryPreMission`, aviary/models/external_subsystems/detailed_battery/model/battery_premission.py:125 -/
noncomputable def J_battery_n_parallel__battery_cell_discharge_rate (battery_current_max battery_cell_discharge_rate : ℝ) : ℝ :=
  (-battery_current_max) / (battery_cell_discharge_rate ^ 2)

/-- Partial of `battery_mass` with respect to `battery_voltage` as set by `BatteryPreMission`, aviary/models/external_subsystems/detailed_battery/model/battery_premission.py:129 -/
noncomputable def J_battery_mass__battery_voltage (battery_cell_voltage_low battery_current_max battery_cell_discharge_rate battery_cell_mass battery_case_weight_frac : ℝ) : ℝ :=
  (((1 / battery_cell_voltage_low) * (n_p battery_current_max battery_cell_discharge_rate)) *
    battery_cell_mass) * battery_case_weight_frac

/-- Partial of `battery_mass` with respect to `battery_cell_voltage_low` as set by `BatteryPreMission`, aviary/models/external_subsystems/detailed_battery/model/battery_premission.py:132 -/
noncomputable def J_battery_mass__battery_cell_voltage_low (battery_voltage battery_cell_voltage_low battery_current_max battery_cell_discharge_rate battery_cell_mass battery_case_weight_frac : ℝ) : ℝ :=
  ((((-battery_voltage) / (battery_cell_voltage_low ^ 2)) * (n_p battery_current_max
    battery_cell_discharge_rate)) * battery_cell_mass) * battery_case_weight_frac

/-- Partial of `battery_mass` with respect to `battery_current_max` as set by `BatteryPreMission`, aviary/models/external_subsystems/detailed_battery/model/battery_premission.py:138 -/
noncomputable def J_battery_mass__battery_current_max (battery_voltage battery_cell_voltage_low battery_cell_discharge_rate battery_cell_mass battery_case_weight_frac : ℝ) : ℝ :=
  (((1 / battery_cell_discharge_rate) * (n_s battery_voltage battery_cell_voltage_low)) *
    battery_cell_mass) * battery_case_weight_frac

/-- Partial of `battery_mass` with respect to `battery_cell_discharge_rate` as set by `BatteryPreMission`, aviary/models/external_subsystems/detailed_battery/model/battery_premission.py:144 -/
noncomputable def J_battery_mass__battery_cell_discharge_rate (battery_voltage battery_cell_voltage_low battery_current_max battery_cell_discharge_rate battery_cell_mass battery_case_weight_frac : ℝ) : ℝ :=
  ((((-battery_current_max) / (battery_cell_discharge_rate ^ 2)) * (n_s battery_voltage
    battery_cell_voltage_low)) * battery_cell_mass) * battery_case_weight_frac

/-- Partial of `battery_mass` with respect to `battery_cell_mass` as set by `BatteryPreMission`, aviary/models/external_subsystems/detailed_battery/model/battery_premission.py:150 -/
noncomputable def J_battery_mass__battery_cell_mass (battery_voltage battery_cell_voltage_low battery_current_max battery_cell_discharge_rate battery_case_weight_frac : ℝ) : ℝ :=
  ((n_s battery_voltage battery_cell_voltage_low) * (n_p battery_current_max
    battery_cell_discharge_rate)) * battery_case_weight_frac

/-- Partial of `battery_mass` with respect to `battery_case_weight_frac` as set by `BatteryPreMission`, aviary/models/external_subsystems/detailed_battery/model/battery_premission.py:151 -/
noncomputable def J_battery_mass__battery_case_weight_frac (battery_voltage battery_cell_voltage_low battery_current_max battery_cell_discharge_rate battery_cell_mass : ℝ) : ℝ :=
  ((n_s battery_voltage battery_cell_voltage_low) * (n_p battery_current_max
    battery_cell_discharge_rate)) * battery_cell_mass

/-- Partial of `battery_heat_capacity` with respect to `battery_cell_heat_capacity` as set by `BatteryPreMission`, aviary/models/external_subsystems/detailed_battery/model/battery_premission.py:153 -/
noncomputable def J_battery_heat_capacity__battery_cell_heat_capacity (battery_case_weight_frac : ℝ) : ℝ :=
  1 / battery_case_weight_frac

/-- Partial of `battery_heat_capacity` with respect to `battery_case_heat_capacity` as set by `BatteryPreMission`, aviary/models/external_subsystems/detailed_battery/model/battery_premission.py:156 -/
noncomputable def J_battery_heat_capacity__battery_case_heat_capacity (battery_case_weight_frac : ℝ) : ℝ :=
  (1 - battery_case_weight_frac) / battery_case_weight_frac

/-- Partial of `battery_heat_capacity` with respect to `battery_case_weight_frac` as set by `BatteryPreMission`, aviary/models/external_subsystems/detailed_battery/model/battery_premission.py:159 -/
noncomputable def J_battery_heat_capacity__battery_case_weight_frac (battery_case_weight_frac battery_cell_heat_capacity battery_case_heat_capacity : ℝ) : ℝ :=
  (-(battery_cell_heat_capacity + battery_case_heat_capacity)) / (battery_case_weight_frac ^ 2)

/-- Partial of `battery_volume` with respect to `battery_voltage` as set by `BatteryPreMission`, aviary/models/external_subsystems/detailed_battery/model/battery_premission.py:163 -/
noncomputable def J_battery_volume__battery_voltage (battery_cell_voltage_low battery_current_max battery_cell_discharge_rate battery_cell_volume : ℝ) : ℝ :=
  ((1 / battery_cell_voltage_low) * (n_p battery_current_max battery_cell_discharge_rate)) *
    battery_cell_volume

/-- Partial of `battery_volume` with respect to `battery_cell_voltage_low` as set by `BatteryPreMission`, aviary/models/external_subsystems/detailed_battery/model/battery_premission.py:166 -/
noncomputable def J_battery_volume__battery_cell_voltage_low (battery_voltage battery_cell_voltage_low battery_current_max battery_cell_discharge_rate battery_cell_volume : ℝ) : ℝ :=
  (((-battery_voltage) / (battery_cell_voltage_low ^ 2)) * (n_p battery_current_max
    battery_cell_discharge_rate)) * battery_cell_volume

/-- Partial of `battery_volume` with respect to `battery_current_max` as set by `BatteryPreMission`, aviary/models/external_subsystems/detailed_battery/model/battery_premission.py:169 -/
noncomputable def J_battery_volume__battery_current_max (battery_voltage battery_cell_voltage_low battery_cell_discharge_rate battery_cell_volume : ℝ) : ℝ :=
  ((1 / battery_cell_discharge_rate) * (n_s battery_voltage battery_cell_voltage_low)) *
    battery_cell_volume

/-- Partial of `battery_volume` with respect to `battery_cell_discharge_rate` as set by `BatteryPreMission`, aviary/models/external_subsystems/detailed_battery/model/battery_premission.py:172 -/
noncomputable def J_battery_volume__battery_cell_discharge_rate (battery_voltage battery_cell_voltage_low battery_current_max battery_cell_discharge_rate battery_cell_volume : ℝ) : ℝ :=
  (((-battery_current_max) / (battery_cell_discharge_rate ^ 2)) * (n_s battery_voltage
    battery_cell_voltage_low)) * battery_cell_volume

/-- Partial of `battery_volume` with respect to `battery_cell_volume` as set by `BatteryPreMission`, aviary/models/external_subsystems/detailed_battery/model/battery_premission.py:175 -/
noncomputable def J_battery_volume__battery_cell_volume (battery_voltage battery_cell_voltage_low battery_current_max battery_cell_discharge_rate : ℝ) : ℝ :=
  (n_s battery_voltage battery_cell_voltage_low) * (n_p battery_current_max
    battery_cell_discharge_rate)

theorem d_battery_n_series__battery_voltage (battery_voltage battery_cell_voltage_low : ℝ) (h0 : 0
    < battery_cell_voltage_low) :
    HasDerivAt (fun t => out_battery_n_series t battery_cell_voltage_low) (J_battery_n_series__battery_voltage battery_cell_voltage_low) battery_voltage := by
  simp only [out_battery_n_series, J_battery_n_series__battery_voltage]
  (apply hasDerivAt_of_eq; on_goal 1 => (repeat' comp_step))
  all_goals try comp_side
  all_goals try simp only [mul_zero, zero_mul, add_zero, zero_add, sub_zero, zero_sub, mul_one, one_mul]
  all_goals try push_cast
  all_goals comp_eq

theorem d_battery_n_series__battery_cell_voltage_low (battery_voltage battery_cell_voltage_low :
    ℝ) (h0 : 0 < battery_cell_voltage_low) :
    HasDerivAt (fun t => out_battery_n_series battery_voltage t) (J_battery_n_series__battery_cell_voltage_low battery_voltage battery_cell_voltage_low) battery_cell_voltage_low := by
  simp only [out_battery_n_series, J_battery_n_series__battery_cell_voltage_low]
  (apply hasDerivAt_of_eq; on_goal 1 => (repeat' comp_step))
  all_goals try comp_side
  all_goals try simp only [mul_zero, zero_mul, add_zero, zero_add, sub_zero, zero_sub, mul_one, one_mul]
  all_goals try push_cast
  all_goals comp_eq

theorem d_battery_n_parallel__battery_current_max (battery_current_max battery_cell_discharge_rate
    : ℝ) (h0 : 0 < battery_cell_discharge_rate) :
    HasDerivAt (fun t => out_battery_n_parallel t battery_cell_discharge_rate) (J_battery_n_parallel__battery_current_max battery_cell_discharge_rate) battery_current_max := by
  simp only [out_battery_n_parallel, J_battery_n_parallel__battery_current_max]
  (apply hasDerivAt_of_eq; on_goal 1 => (repeat' comp_step))
  all_goals try comp_side
  all_goals try simp only [mul_zero, zero_mul, add_zero, zero_add, sub_zero, zero_sub, mul_one, one_mul]
  all_goals try push_cast
  all_goals comp_eq

theorem d_battery_n_parallel__battery_cell_discharge_rate (battery_current_max
    battery_cell_discharge_rate : ℝ) (h0 : 0 < battery_cell_discharge_rate) :
    HasDerivAt (fun t => out_battery_n_parallel battery_current_max t) (J_battery_n_parallel__battery_cell_discharge_rate battery_current_max battery_cell_discharge_rate) battery_cell_discharge_rate := by
  simp only [out_battery_n_parallel, J_battery_n_parallel__battery_cell_discharge_rate]
  (apply hasDerivAt_of_eq; on_goal 1 => (repeat' comp_step))
  all_goals try comp_side
  all_goals try simp only [mul_zero, zero_mul, add_zero, zero_add, sub_zero, zero_sub, mul_one, one_mul]
  all_goals try push_cast
  all_goals comp_eq

theorem d_battery_mass__battery_voltage (battery_voltage battery_cell_voltage_low
    battery_current_max battery_cell_discharge_rate battery_cell_mass battery_case_weight_frac :
    ℝ) (h0 : 0 < battery_cell_voltage_low) (h1 : 0 < battery_cell_discharge_rate) :
    HasDerivAt (fun t => out_battery_mass t battery_cell_voltage_low battery_current_max battery_cell_discharge_rate battery_cell_mass battery_case_weight_frac) (J_battery_mass__battery_voltage battery_cell_voltage_low battery_current_max battery_cell_discharge_rate battery_cell_mass battery_case_weight_frac) battery_voltage := by
  simp only [out_battery_mass, J_battery_mass__battery_voltage, n_p]
  (apply hasDerivAt_of_eq; on_goal 1 => (repeat' comp_step))
  all_goals try comp_side
  all_goals try simp only [mul_zero, zero_mul, add_zero, zero_add, sub_zero, zero_sub, mul_one, one_mul]
  all_goals try push_cast
  all_goals comp_eq

theorem d_battery_mass__battery_cell_voltage_low (battery_voltage battery_cell_voltage_low
    battery_current_max battery_cell_discharge_rate battery_cell_mass battery_case_weight_frac :
    ℝ) (h0 : 0 < battery_cell_voltage_low) (h1 : 0 < battery_cell_discharge_rate) :
    HasDerivAt (fun t => out_battery_mass battery_voltage t battery_current_max battery_cell_discharge_rate battery_cell_mass battery_case_weight_frac) (J_battery_mass__battery_cell_voltage_low battery_voltage battery_cell_voltage_low battery_current_max battery_cell_discharge_rate battery_cell_mass battery_case_weight_frac) battery_cell_voltage_low := by
  simp only [out_battery_mass, J_battery_mass__battery_cell_voltage_low, n_p]
  (apply hasDerivAt_of_eq; on_goal 1 => (repeat' comp_step))
  all_goals try comp_side
  all_goals try simp only [mul_zero, zero_mul, add_zero, zero_add, sub_zero, zero_sub, mul_one, one_mul]
  all_goals try push_cast
  all_goals comp_eq

theorem d_battery_mass__battery_current_max (battery_voltage battery_cell_voltage_low
    battery_current_max battery_cell_discharge_rate battery_cell_mass battery_case_weight_frac :
    ℝ) (h0 : 0 < battery_cell_voltage_low) (h1 : 0 < battery_cell_discharge_rate) :
    HasDerivAt (fun t => out_battery_mass battery_voltage battery_cell_voltage_low t battery_cell_discharge_rate battery_cell_mass battery_case_weight_frac) (J_battery_mass__battery_current_max battery_voltage battery_cell_voltage_low battery_cell_discharge_rate battery_cell_mass battery_case_weight_frac) battery_current_max := by
  simp only [out_battery_mass, J_battery_mass__battery_current_max, n_s]
  (apply hasDerivAt_of_eq; on_goal 1 => (repeat' comp_step))
  all_goals try comp_side
  all_goals try simp only [mul_zero, zero_mul, add_zero, zero_add, sub_zero, zero_sub, mul_one, one_mul]
  all_goals try push_cast
  all_goals comp_eq

theorem d_battery_mass__battery_cell_discharge_rate (battery_voltage battery_cell_voltage_low
    battery_current_max battery_cell_discharge_rate battery_cell_mass battery_case_weight_frac :
    ℝ) (h0 : 0 < battery_cell_voltage_low) (h1 : 0 < battery_cell_discharge_rate) :
    HasDerivAt (fun t => out_battery_mass battery_voltage battery_cell_voltage_low battery_current_max t battery_cell_mass battery_case_weight_frac) (J_battery_mass__battery_cell_discharge_rate battery_voltage battery_cell_voltage_low battery_current_max battery_cell_discharge_rate battery_cell_mass battery_case_weight_frac) battery_cell_discharge_rate := by
  simp only [out_battery_mass, J_battery_mass__battery_cell_discharge_rate, n_s]
  (apply hasDerivAt_of_eq; on_goal 1 => (repeat' comp_step))
  all_goals try comp_side
  all_goals try simp only [mul_zero, zero_mul, add_zero, zero_add, sub_zero, zero_sub, mul_one, one_mul]
  all_goals try push_cast
  all_goals comp_eq

theorem d_battery_mass__battery_cell_mass (battery_voltage battery_cell_voltage_low
    battery_current_max battery_cell_discharge_rate battery_cell_mass battery_case_weight_frac :
    ℝ) (h0 : 0 < battery_cell_voltage_low) (h1 : 0 < battery_cell_discharge_rate) :
    HasDerivAt (fun t => out_battery_mass battery_voltage battery_cell_voltage_low battery_current_max battery_cell_discharge_rate t battery_case_weight_frac) (J_battery_mass__battery_cell_mass battery_voltage battery_cell_voltage_low battery_current_max battery_cell_discharge_rate battery_case_weight_frac) battery_cell_mass := by
  simp only [out_battery_mass, J_battery_mass__battery_cell_mass, n_p, n_s]
  (apply hasDerivAt_of_eq; on_goal 1 => (repeat' comp_step))
  all_goals try comp_side
  all_goals try simp only [mul_zero, zero_mul, add_zero, zero_add, sub_zero, zero_sub, mul_one, one_mul]
  all_goals try push_cast
  all_goals comp_eq

theorem d_battery_mass__battery_case_weight_frac (battery_voltage battery_cell_voltage_low
    battery_current_max battery_cell_discharge_rate battery_cell_mass battery_case_weight_frac :
    ℝ) (h0 : 0 < battery_cell_voltage_low) (h1 : 0 < battery_cell_discharge_rate) :
    HasDerivAt (fun t => out_battery_mass battery_voltage battery_cell_voltage_low battery_current_max battery_cell_discharge_rate battery_cell_mass t) (J_battery_mass__battery_case_weight_frac battery_voltage battery_cell_voltage_low battery_current_max battery_cell_discharge_rate battery_cell_mass) battery_case_weight_frac := by
  simp only [out_battery_mass, J_battery_mass__battery_case_weight_frac, n_p, n_s]
  (apply hasDerivAt_of_eq; on_goal 1 => (repeat' comp_step))
  all_goals try comp_side
  all_goals try simp only [mul_zero, zero_mul, add_zero, zero_add, sub_zero, zero_sub, mul_one, one_mul]
  all_goals try push_cast
  all_goals comp_eq

theorem d_battery_heat_capacity__battery_case_weight_frac (battery_case_weight_frac
    battery_cell_heat_capacity battery_case_heat_capacity : ℝ) (h0 : 0 < battery_case_weight_frac)
    :
    HasDerivAt (fun t => out_battery_heat_capacity t battery_cell_heat_capacity battery_case_heat_capacity) (J_battery_heat_capacity__battery_case_weight_frac battery_case_weight_frac battery_cell_heat_capacity battery_case_heat_capacity) battery_case_weight_frac := by
  simp only [out_battery_heat_capacity, J_battery_heat_capacity__battery_case_weight_frac]
  (apply hasDerivAt_of_eq; on_goal 1 => (repeat' comp_step))
  all_goals try comp_side
  all_goals try simp only [mul_zero, zero_mul, add_zero, zero_add, sub_zero, zero_sub, mul_one, one_mul]
  all_goals try push_cast
  all_goals comp_eq

theorem d_battery_heat_capacity__battery_cell_heat_capacity (battery_case_weight_frac
    battery_cell_heat_capacity battery_case_heat_capacity : ℝ) (h0 : 0 < battery_case_weight_frac)
    :
    HasDerivAt (fun t => out_battery_heat_capacity battery_case_weight_frac t battery_case_heat_capacity) (J_battery_heat_capacity__battery_cell_heat_capacity battery_case_weight_frac) battery_cell_heat_capacity := by
  simp only [out_battery_heat_capacity, J_battery_heat_capacity__battery_cell_heat_capacity]
  (apply hasDerivAt_of_eq; on_goal 1 => (repeat' comp_step))
  all_goals try comp_side
  all_goals try simp only [mul_zero, zero_mul, add_zero, zero_add, sub_zero, zero_sub, mul_one, one_mul]
  all_goals try push_cast
  all_goals comp_eq

theorem d_battery_heat_capacity__battery_case_heat_capacity (battery_case_weight_frac
    battery_cell_heat_capacity battery_case_heat_capacity : ℝ) (h0 : 0 < battery_case_weight_frac)
    :
    HasDerivAt (fun t => out_battery_heat_capacity battery_case_weight_frac battery_cell_heat_capacity t) (J_battery_heat_capacity__battery_case_heat_capacity battery_case_weight_frac) battery_case_heat_capacity := by
  simp only [out_battery_heat_capacity, J_battery_heat_capacity__battery_case_heat_capacity]
  (apply hasDerivAt_of_eq; on_goal 1 => (repeat' comp_step))
  all_goals try comp_side
  all_goals try simp only [mul_zero, zero_mul, add_zero, zero_add, sub_zero, zero_sub, mul_one, one_mul]
  all_goals try push_cast
  all_goals comp_eq

theorem d_battery_volume__battery_voltage (battery_voltage battery_cell_voltage_low
    battery_current_max battery_cell_discharge_rate battery_cell_volume : ℝ) (h0 : 0 <
    battery_cell_voltage_low) (h1 : 0 < battery_cell_discharge_rate) :
    HasDerivAt (fun t => out_battery_volume t battery_cell_voltage_low battery_current_max battery_cell_discharge_rate battery_cell_volume) (J_battery_volume__battery_voltage battery_cell_voltage_low battery_current_max battery_cell_discharge_rate battery_cell_volume) battery_voltage := by
  simp only [out_battery_volume, J_battery_volume__battery_voltage, n_p]
  (apply hasDerivAt_of_eq; on_goal 1 => (repeat' comp_step))
  all_goals try comp_side
  all_goals try simp only [mul_zero, zero_mul, add_zero, zero_add, sub_zero, zero_sub, mul_one, one_mul]
  all_goals try push_cast
  all_goals comp_eq

theorem d_battery_volume__battery_cell_voltage_low (battery_voltage battery_cell_voltage_low
    battery_current_max battery_cell_discharge_rate battery_cell_volume : ℝ) (h0 : 0 <
    battery_cell_voltage_low) (h1 : 0 < battery_cell_discharge_rate) :
    HasDerivAt (fun t => out_battery_volume battery_voltage t battery_current_max battery_cell_discharge_rate battery_cell_volume) (J_battery_volume__battery_cell_voltage_low battery_voltage battery_cell_voltage_low battery_current_max battery_cell_discharge_rate battery_cell_volume) battery_cell_voltage_low := by
  simp only [out_battery_volume, J_battery_volume__battery_cell_voltage_low, n_p]
  (apply hasDerivAt_of_eq; on_goal 1 => (repeat' comp_step))
  all_goals try comp_side
  all_goals try simp only [mul_zero, zero_mul, add_zero, zero_add, sub_zero, zero_sub, mul_one, one_mul]
  all_goals try push_cast
  all_goals comp_eq

theorem d_battery_volume__battery_current_max (battery_voltage battery_cell_voltage_low
    battery_current_max battery_cell_discharge_rate battery_cell_volume : ℝ) (h0 : 0 <
    battery_cell_voltage_low) (h1 : 0 < battery_cell_discharge_rate) :
    HasDerivAt (fun t => out_battery_volume battery_voltage battery_cell_voltage_low t battery_cell_discharge_rate battery_cell_volume) (J_battery_volume__battery_current_max battery_voltage battery_cell_voltage_low battery_cell_discharge_rate battery_cell_volume) battery_current_max := by
  simp only [out_battery_volume, J_battery_volume__battery_current_max, n_s]
  (apply hasDerivAt_of_eq; on_goal 1 => (repeat' comp_step))
  all_goals try comp_side
  all_goals try simp only [mul_zero, zero_mul, add_zero, zero_add, sub_zero, zero_sub, mul_one, one_mul]
  all_goals try push_cast
  all_goals comp_eq

theorem d_battery_volume__battery_cell_discharge_rate (battery_voltage battery_cell_voltage_low
    battery_current_max battery_cell_discharge_rate battery_cell_volume : ℝ) (h0 : 0 <
    battery_cell_voltage_low) (h1 : 0 < battery_cell_discharge_rate) :
    HasDerivAt (fun t => out_battery_volume battery_voltage battery_cell_voltage_low battery_current_max t battery_cell_volume) (J_battery_volume__battery_cell_discharge_rate battery_voltage battery_cell_voltage_low battery_current_max battery_cell_discharge_rate battery_cell_volume) battery_cell_discharge_rate := by
  simp only [out_battery_volume, J_battery_volume__battery_cell_discharge_rate, n_s]
  (apply hasDerivAt_of_eq; on_goal 1 => (repeat' comp_step))
  all_goals try comp_side
  all_goals try simp only [mul_zero, zero_mul, add_zero, zero_add, sub_zero, zero_sub, mul_one, one_mul]
  all_goals try push_cast
  all_goals comp_eq

theorem d_battery_volume__battery_cell_volume (battery_voltage battery_cell_voltage_low
    battery_current_max battery_cell_discharge_rate battery_cell_volume : ℝ) (h0 : 0 <
    battery_cell_voltage_low) (h1 : 0 < battery_cell_discharge_rate) :
    HasDerivAt (fun t => out_battery_volume battery_voltage battery_cell_voltage_low battery_current_max battery_cell_discharge_rate t) (J_battery_volume__battery_cell_volume battery_voltage battery_cell_voltage_low battery_current_max battery_cell_discharge_rate) battery_cell_volume := by
  simp only [out_battery_volume, J_battery_volume__battery_cell_volume, n_p, n_s]
  (apply hasDerivAt_of_eq; on_goal 1 => (repeat' comp_step))
  all_goals try comp_side
  all_goals try simp only [mul_zero, zero_mul, add_zero, zero_add, sub_zero, zero_sub, mul_one, one_mul]
  all_goals try push_cast
  all_goals comp_eq

/-- Every partial derivative set by `BatteryPreMission` is the derivative of its output. -/
theorem partials (battery_voltage battery_cell_voltage_low battery_current_max
    battery_cell_discharge_rate battery_cell_mass battery_case_weight_frac
    battery_cell_heat_capacity battery_case_heat_capacity battery_cell_volume : ℝ) (h0 : 0 <
    battery_cell_voltage_low) (h1 : 0 < battery_cell_discharge_rate) (h2 : 0 <
    battery_case_weight_frac) :
    HasDerivAt (fun t => out_battery_n_series t battery_cell_voltage_low)
      (J_battery_n_series__battery_voltage battery_cell_voltage_low) battery_voltage ∧
    HasDerivAt (fun t => out_battery_n_series battery_voltage t)
      (J_battery_n_series__battery_cell_voltage_low battery_voltage battery_cell_voltage_low)
      battery_cell_voltage_low ∧
    HasDerivAt (fun t => out_battery_n_parallel t battery_cell_discharge_rate)
      (J_battery_n_parallel__battery_current_max battery_cell_discharge_rate) battery_current_max ∧
    HasDerivAt (fun t => out_battery_n_parallel battery_current_max t)
      (J_battery_n_parallel__battery_cell_discharge_rate battery_current_max
      battery_cell_discharge_rate) battery_cell_discharge_rate ∧
    HasDerivAt (fun t => out_battery_mass t battery_cell_voltage_low battery_current_max
      battery_cell_discharge_rate battery_cell_mass battery_case_weight_frac)
      (J_battery_mass__battery_voltage battery_cell_voltage_low battery_current_max
      battery_cell_discharge_rate battery_cell_mass battery_case_weight_frac) battery_voltage ∧
    HasDerivAt (fun t => out_battery_mass battery_voltage t battery_current_max
      battery_cell_discharge_rate battery_cell_mass battery_case_weight_frac)
      (J_battery_mass__battery_cell_voltage_low battery_voltage battery_cell_voltage_low
      battery_current_max battery_cell_discharge_rate battery_cell_mass battery_case_weight_frac)
      battery_cell_voltage_low ∧
    HasDerivAt (fun t => out_battery_mass battery_voltage battery_cell_voltage_low t
      battery_cell_discharge_rate battery_cell_mass battery_case_weight_frac)
      (J_battery_mass__battery_current_max battery_voltage battery_cell_voltage_low
      battery_cell_discharge_rate battery_cell_mass battery_case_weight_frac) battery_current_max ∧
    HasDerivAt (fun t => out_battery_mass battery_voltage battery_cell_voltage_low battery_current_max
      t battery_cell_mass battery_case_weight_frac) (J_battery_mass__battery_cell_discharge_rate
      battery_voltage battery_cell_voltage_low battery_current_max battery_cell_discharge_rate
      battery_cell_mass battery_case_weight_frac) battery_cell_discharge_rate ∧
    HasDerivAt (fun t => out_battery_mass battery_voltage battery_cell_voltage_low battery_current_max
      battery_cell_discharge_rate t battery_case_weight_frac) (J_battery_mass__battery_cell_mass
      battery_voltage battery_cell_voltage_low battery_current_max battery_cell_discharge_rate
      battery_case_weight_frac) battery_cell_mass ∧
    HasDerivAt (fun t => out_battery_mass battery_voltage battery_cell_voltage_low battery_current_max
      battery_cell_discharge_rate battery_cell_mass t) (J_battery_mass__battery_case_weight_frac
      battery_voltage battery_cell_voltage_low battery_current_max battery_cell_discharge_rate
      battery_cell_mass) battery_case_weight_frac ∧
    HasDerivAt (fun t => out_battery_heat_capacity t battery_cell_heat_capacity
      battery_case_heat_capacity) (J_battery_heat_capacity__battery_case_weight_frac
      battery_case_weight_frac battery_cell_heat_capacity battery_case_heat_capacity)
      battery_case_weight_frac ∧
    HasDerivAt (fun t => out_battery_heat_capacity battery_case_weight_frac t
      battery_case_heat_capacity) (J_battery_heat_capacity__battery_cell_heat_capacity
      battery_case_weight_frac) battery_cell_heat_capacity ∧
    HasDerivAt (fun t => out_battery_heat_capacity battery_case_weight_frac battery_cell_heat_capacity
      t) (J_battery_heat_capacity__battery_case_heat_capacity battery_case_weight_frac)
      battery_case_heat_capacity ∧
    HasDerivAt (fun t => out_battery_volume t battery_cell_voltage_low battery_current_max
      battery_cell_discharge_rate battery_cell_volume) (J_battery_volume__battery_voltage
      battery_cell_voltage_low battery_current_max battery_cell_discharge_rate
      battery_cell_volume) battery_voltage ∧
    HasDerivAt (fun t => out_battery_volume battery_voltage t battery_current_max
      battery_cell_discharge_rate battery_cell_volume) (J_battery_volume__battery_cell_voltage_low
      battery_voltage battery_cell_voltage_low battery_current_max battery_cell_discharge_rate
      battery_cell_volume) battery_cell_voltage_low ∧
    HasDerivAt (fun t => out_battery_volume battery_voltage battery_cell_voltage_low t
      battery_cell_discharge_rate battery_cell_volume) (J_battery_volume__battery_current_max
      battery_voltage battery_cell_voltage_low battery_cell_discharge_rate battery_cell_volume)
      battery_current_max ∧
    HasDerivAt (fun t => out_battery_volume battery_voltage battery_cell_voltage_low
      battery_current_max t battery_cell_volume) (J_battery_volume__battery_cell_discharge_rate
      battery_voltage battery_cell_voltage_low battery_current_max battery_cell_discharge_rate
      battery_cell_volume) battery_cell_discharge_rate ∧
    HasDerivAt (fun t => out_battery_volume battery_voltage battery_cell_voltage_low
      battery_current_max battery_cell_discharge_rate t) (J_battery_volume__battery_cell_volume
      battery_voltage battery_cell_voltage_low battery_current_max battery_cell_discharge_rate)
      battery_cell_volume :=
  ⟨d_battery_n_series__battery_voltage _ _ h0, d_battery_n_series__battery_cell_voltage_low _ _
    h0, d_battery_n_parallel__battery_current_max _ _ h1,
    d_battery_n_parallel__battery_cell_discharge_rate _ _ h1, d_battery_mass__battery_voltage _ _
    _ _ _ _ h0 h1, d_battery_mass__battery_cell_voltage_low _ _ _ _ _ _ h0 h1,
    d_battery_mass__battery_current_max _ _ _ _ _ _ h0 h1,
    d_battery_mass__battery_cell_discharge_rate _ _ _ _ _ _ h0 h1,
    d_battery_mass__battery_cell_mass _ _ _ _ _ _ h0 h1, d_battery_mass__battery_case_weight_frac
    _ _ _ _ _ _ h0 h1, d_battery_heat_capacity__battery_case_weight_frac _ _ _ h2,
    d_battery_heat_capacity__battery_cell_heat_capacity _ _ _ h2,
    d_battery_heat_capacity__battery_case_heat_capacity _ _ _ h2,
    d_battery_volume__battery_voltage _ _ _ _ _ h0 h1, d_battery_volume__battery_cell_voltage_low
    _ _ _ _ _ h0 h1, d_battery_volume__battery_current_max _ _ _ _ _ h0 h1,
    d_battery_volume__battery_cell_discharge_rate _ _ _ _ _ h0 h1,
    d_battery_volume__battery_cell_volume _ _ _ _ _ h0 h1⟩

example : ∃ battery_voltage battery_cell_voltage_low battery_current_max
      battery_cell_discharge_rate battery_cell_mass battery_case_weight_frac
      battery_cell_heat_capacity battery_case_heat_capacity battery_cell_volume : ℝ,
      0 < battery_cell_voltage_low ∧
      0 < battery_cell_discharge_rate ∧
      0 < battery_case_weight_frac :=
  ⟨0, 1, 0, 1, 0, 1, 0, 0, 0, by comp_example, by comp_example, by comp_example⟩

end Verif.Comp.ModelsExternalSubsystemsDetailedBatteryModelBatteryPremission.BatteryPreMission

