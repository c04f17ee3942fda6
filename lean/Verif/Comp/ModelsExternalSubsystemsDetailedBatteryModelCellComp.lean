import Verif.Lemmas.CompDeriv

/-! # Partial derivatives of the components of `aviary/models/external_subsystems/detailed_battery/model/cell_comp.py`

One node of a vector component is modelled over the real numbers.  Each option that selects a
branch is fixed, one namespace per choice.  `out_x` is the output `x`, `J_x__y` the entry that
`compute_partials` (or `declare_partials` with `val`) assigns, `d_x__y` the proof that the entry is
the derivative.  Inputs an output does not take as argument have no influence on it. -/

set_option linter.all false

namespace Verif.Comp.ModelsExternalSubsystemsDetailedBatteryModelCellComp.CellComp
open Real

/-- aviary/models/external_subsystems/detailed_battery/model/cell_comp.py:182 -/
noncomputable def i_li (battery_n_parallel battery_current : ℝ) : ℝ :=
  battery_current / battery_n_parallel

/-- aviary/models/external_subsystems/detailed_battery/model/cell_comp.py:187 -/
noncomputable def u_l (battery_voltage_thevenin r_0 u_oc battery_n_parallel battery_current : ℝ) : ℝ :=
  (u_oc - battery_voltage_thevenin) - ((i_li battery_n_parallel battery_current) * r_0)

/-- aviary/models/external_subsystems/detailed_battery/model/cell_comp.py:190 -/
noncomputable def q_cell (battery_voltage_thevenin r_0 battery_n_parallel battery_current : ℝ) : ℝ :=
  ((i_li battery_n_parallel battery_current) ^ 2) * (r_0 + (battery_voltage_thevenin / (i_li
    battery_n_parallel battery_current)))

/-- aviary/models/external_subsystems/detailed_battery/model/cell_comp.py:195 -/
noncomputable def p_tot (battery_voltage_thevenin r_0 u_oc battery_n_parallel battery_n_series battery_current : ℝ) : ℝ :=
  battery_current * ((u_l battery_voltage_thevenin r_0 u_oc battery_n_parallel battery_current)
    * battery_n_series)

/-- aviary/models/external_subsystems/detailed_battery/model/cell_comp.py:214 -/
noncomputable def u_pack (battery_voltage_thevenin r_0 u_oc battery_n_parallel battery_n_series battery_current : ℝ) : ℝ :=
  (u_l battery_voltage_thevenin r_0 u_oc battery_n_parallel battery_current) * battery_n_series

/-- aviary/models/external_subsystems/detailed_battery/model/cell_comp.py:215 -/
noncomputable def q_pack (battery_voltage_thevenin r_0 battery_n_parallel battery_n_series battery_current : ℝ) : ℝ :=
  ((q_cell battery_voltage_thevenin r_0 battery_n_parallel battery_current) * battery_n_series)
    * battery_n_parallel

/-- aviary/models/external_subsystems/detailed_battery/model/cell_comp.py:216 -/
noncomputable def p_tot_2 (battery_voltage_thevenin r_0 u_oc battery_n_parallel battery_n_series battery_current : ℝ) : ℝ :=
  battery_current * (u_pack battery_voltage_thevenin r_0 u_oc battery_n_parallel
    battery_n_series battery_current)

/-- aviary/models/external_subsystems/detailed_battery/model/cell_comp.py:218 -/
noncomputable def di_li__dnp (battery_n_parallel battery_current : ℝ) : ℝ :=
  (-battery_current) / (battery_n_parallel ^ 2)

/-- aviary/models/external_subsystems/detailed_battery/model/cell_comp.py:219 -/
noncomputable def du_l__dnp (r_0 battery_n_parallel battery_current : ℝ) : ℝ :=
  (-r_0) * (di_li__dnp battery_n_parallel battery_current)

/-- aviary/models/external_subsystems/detailed_battery/model/cell_comp.py:220 -/
noncomputable def du_pack__dnp (r_0 battery_n_parallel battery_n_series battery_current : ℝ) : ℝ :=
  (du_l__dnp r_0 battery_n_parallel battery_current) * battery_n_series

/-- aviary/models/external_subsystems/detailed_battery/model/cell_comp.py:221 -/
noncomputable def dq_cell__dnp (battery_voltage_thevenin r_0 battery_n_parallel battery_current : ℝ) : ℝ :=
  (((2 * (i_li battery_n_parallel battery_current)) * (di_li__dnp battery_n_parallel
    battery_current)) * (r_0 + (battery_voltage_thevenin / (i_li battery_n_parallel
    battery_current)))) - (battery_voltage_thevenin * (di_li__dnp battery_n_parallel
    battery_current))

/-- aviary/models/external_subsystems/detailed_battery/model/cell_comp.py:222 -/
noncomputable def dq_pack__dnp (battery_voltage_thevenin r_0 battery_n_parallel battery_n_series battery_current : ℝ) : ℝ :=
  battery_n_series * (((dq_cell__dnp battery_voltage_thevenin r_0 battery_n_parallel
    battery_current) * battery_n_parallel) + (q_cell battery_voltage_thevenin r_0
    battery_n_parallel battery_current))

/-- aviary/models/external_subsystems/detailed_battery/model/cell_comp.py:223 -/
noncomputable def dptot__dnp (r_0 battery_n_parallel battery_n_series battery_current : ℝ) : ℝ :=
  battery_current * (du_pack__dnp r_0 battery_n_parallel battery_n_series battery_current)

/-- aviary/models/external_subsystems/detailed_battery/model/cell_comp.py:224 -/
noncomputable def dpack_eta__dnp (battery_voltage_thevenin r_0 u_oc battery_n_parallel battery_n_series battery_current : ℝ) : ℝ :=
  ((-(dq_pack__dnp battery_voltage_thevenin r_0 battery_n_parallel battery_n_series
    battery_current)) / ((p_tot_2 battery_voltage_thevenin r_0 u_oc battery_n_parallel
    battery_n_series battery_current) + (q_pack battery_voltage_thevenin r_0 battery_n_parallel
    battery_n_series battery_current))) + (((q_pack battery_voltage_thevenin r_0
    battery_n_parallel battery_n_series battery_current) / (((p_tot_2 battery_voltage_thevenin
    r_0 u_oc battery_n_parallel battery_n_series battery_current) + (q_pack
    battery_voltage_thevenin r_0 battery_n_parallel battery_n_series battery_current)) ^ 2)) *
    ((dptot__dnp r_0 battery_n_parallel battery_n_series battery_current) + (dq_pack__dnp
    battery_voltage_thevenin r_0 battery_n_parallel battery_n_series battery_current)))

/-- aviary/models/external_subsystems/detailed_battery/model/cell_comp.py:228 -/
noncomputable def di_li__di_pack (battery_n_parallel : ℝ) : ℝ := 1 / battery_n_parallel

/-- aviary/models/external_subsystems/detailed_battery/model/cell_comp.py:229 -/
noncomputable def dq_cell__di_pack (battery_voltage_thevenin r_0 battery_n_parallel battery_current : ℝ) : ℝ :=
  (((2 * (i_li battery_n_parallel battery_current)) * (di_li__di_pack battery_n_parallel)) *
    (r_0 + (battery_voltage_thevenin / (i_li battery_n_parallel battery_current)))) -
    (battery_voltage_thevenin * (di_li__di_pack battery_n_parallel))

/-- aviary/models/external_subsystems/detailed_battery/model/cell_comp.py:230 -/
noncomputable def dq_pack__di_pack (battery_voltage_thevenin r_0 battery_n_parallel battery_n_series battery_current : ℝ) : ℝ :=
  ((dq_cell__di_pack battery_voltage_thevenin r_0 battery_n_parallel battery_current) *
    battery_n_series) * battery_n_parallel

/-- aviary/models/external_subsystems/detailed_battery/model/cell_comp.py:231 -/
noncomputable def du_pack__di_pack (r_0 battery_n_parallel battery_n_series : ℝ) : ℝ :=
  ((-r_0) * battery_n_series) / battery_n_parallel

/-- aviary/models/external_subsystems/detailed_battery/model/cell_comp.py:232 -/
noncomputable def dptot__di_pack (battery_voltage_thevenin r_0 u_oc battery_n_parallel battery_n_series battery_current : ℝ) : ℝ :=
  (u_pack battery_voltage_thevenin r_0 u_oc battery_n_parallel battery_n_series battery_current)
    + ((du_pack__di_pack r_0 battery_n_parallel battery_n_series) * battery_current)

/-- aviary/models/external_subsystems/detailed_battery/model/cell_comp.py:233 -/
noncomputable def dpack_eta__di_pack (battery_voltage_thevenin r_0 u_oc battery_n_parallel battery_n_series battery_current : ℝ) : ℝ :=
  ((-(dq_pack__di_pack battery_voltage_thevenin r_0 battery_n_parallel battery_n_series
    battery_current)) / ((p_tot_2 battery_voltage_thevenin r_0 u_oc battery_n_parallel
    battery_n_series battery_current) + (q_pack battery_voltage_thevenin r_0 battery_n_parallel
    battery_n_series battery_current))) + (((q_pack battery_voltage_thevenin r_0
    battery_n_parallel battery_n_series battery_current) / (((p_tot_2 battery_voltage_thevenin
    r_0 u_oc battery_n_parallel battery_n_series battery_current) + (q_pack
    battery_voltage_thevenin r_0 battery_n_parallel battery_n_series battery_current)) ^ 2)) *
    ((dptot__di_pack battery_voltage_thevenin r_0 u_oc battery_n_parallel battery_n_series
    battery_current) + (dq_pack__di_pack battery_voltage_thevenin r_0 battery_n_parallel
    battery_n_series battery_current)))

/-- aviary/models/external_subsystems/detailed_battery/model/cell_comp.py:237 -/
noncomputable def dptot__du_th (battery_n_series battery_current : ℝ) : ℝ :=
  (-battery_current) * battery_n_series

/-- aviary/models/external_subsystems/detailed_battery/model/cell_comp.py:238 -/
noncomputable def dq_pack_du_th (battery_n_series battery_current : ℝ) : ℝ :=
  battery_current * battery_n_series

/-- aviary/models/external_subsystems/detailed_battery/model/cell_comp.py:239 -/
noncomputable def dpack_eta__du_t (battery_voltage_thevenin r_0 u_oc battery_n_parallel battery_n_series battery_current : ℝ) : ℝ :=
  ((-(dq_pack_du_th battery_n_series battery_current)) / ((p_tot_2 battery_voltage_thevenin r_0
    u_oc battery_n_parallel battery_n_series battery_current) + (q_pack battery_voltage_thevenin
    r_0 battery_n_parallel battery_n_series battery_current))) + (((q_pack
    battery_voltage_thevenin r_0 battery_n_parallel battery_n_series battery_current) /
    (((p_tot_2 battery_voltage_thevenin r_0 u_oc battery_n_parallel battery_n_series
    battery_current) + (q_pack battery_voltage_thevenin r_0 battery_n_parallel battery_n_series
    battery_current)) ^ 2)) * ((dptot__du_th battery_n_series battery_current) + (dq_pack_du_th
    battery_n_series battery_current)))

/-- aviary/models/external_subsystems/detailed_battery/model/cell_comp.py:243 -/
noncomputable def du_pack__dr_0 (battery_n_parallel battery_n_series battery_current : ℝ) : ℝ :=
  ((-battery_current) * battery_n_series) / battery_n_parallel

/-- aviary/models/external_subsystems/detailed_battery/model/cell_comp.py:244 -/
noncomputable def dptot__dr_0 (battery_n_parallel battery_n_series battery_current : ℝ) : ℝ :=
  battery_current * (du_pack__dr_0 battery_n_parallel battery_n_series battery_current)

/-- aviary/models/external_subsystems/detailed_battery/model/cell_comp.py:245 -/
noncomputable def dq_pack__dr_0 (battery_n_parallel battery_n_series battery_current : ℝ) : ℝ :=
  ((battery_current ^ 2) * battery_n_series) / battery_n_parallel

/-- aviary/models/external_subsystems/detailed_battery/model/cell_comp.py:246 -/
noncomputable def dpack_eta__dr_0 (battery_voltage_thevenin r_0 u_oc battery_n_parallel battery_n_series battery_current : ℝ) : ℝ :=
  ((-(dq_pack__dr_0 battery_n_parallel battery_n_series battery_current)) / ((p_tot_2
    battery_voltage_thevenin r_0 u_oc battery_n_parallel battery_n_series battery_current) +
    (q_pack battery_voltage_thevenin r_0 battery_n_parallel battery_n_series battery_current)))
    + (((q_pack battery_voltage_thevenin r_0 battery_n_parallel battery_n_series
    battery_current) / (((p_tot_2 battery_voltage_thevenin r_0 u_oc battery_n_parallel
    battery_n_series battery_current) + (q_pack battery_voltage_thevenin r_0 battery_n_parallel
    battery_n_series battery_current)) ^ 2)) * ((dptot__dr_0 battery_n_parallel battery_n_series
    battery_current) + (dq_pack__dr_0 battery_n_parallel battery_n_series battery_current)))

/-- aviary/models/external_subsystems/detailed_battery/model/cell_comp.py:250 -/
noncomputable def dptot__du_oc (battery_n_series battery_current : ℝ) : ℝ :=
  battery_current * battery_n_series

/-- aviary/models/external_subsystems/detailed_battery/model/cell_comp.py:251 -/
noncomputable def dpack_eta__du_oc (battery_voltage_thevenin r_0 u_oc battery_n_parallel battery_n_series battery_current : ℝ) : ℝ :=
  ((q_pack battery_voltage_thevenin r_0 battery_n_parallel battery_n_series battery_current) /
    (((p_tot_2 battery_voltage_thevenin r_0 u_oc battery_n_parallel battery_n_series
    battery_current) + (q_pack battery_voltage_thevenin r_0 battery_n_parallel battery_n_series
    battery_current)) ^ 2)) * (dptot__du_oc battery_n_series battery_current)

/-- Output `battery_state_of_charge_rate` of `CellComp.compute`, aviary/models/external_subsystems/detailed_battery/model/cell_comp.py:183 -/
noncomputable def out_battery_state_of_charge_rate (battery_cell_energy_capacity_max battery_n_parallel battery_current : ℝ) : ℝ :=
  (-(i_li battery_n_parallel battery_current)) / (3600 * battery_cell_energy_capacity_max)

/-- Output `battery_voltage_thevenin_rate` of `CellComp.compute`, aviary/models/external_subsystems/detailed_battery/model/cell_comp.py:186 -/
noncomputable def out_battery_voltage_thevenin_rate (c_th r_th battery_voltage_thevenin battery_n_parallel battery_current : ℝ) : ℝ :=
  ((-battery_voltage_thevenin) / (r_th * c_th)) + ((i_li battery_n_parallel battery_current) /
    c_th)

/-- Output `battery_voltage` of `CellComp.compute`, aviary/models/external_subsystems/detailed_battery/model/cell_comp.py:193 -/
noncomputable def out_battery_voltage (battery_voltage_thevenin r_0 u_oc battery_n_parallel battery_n_series battery_current : ℝ) : ℝ :=
  (u_l battery_voltage_thevenin r_0 u_oc battery_n_parallel battery_current) * battery_n_series

/-- Output `battery_heat_out` of `CellComp.compute`, aviary/models/external_subsystems/detailed_battery/model/cell_comp.py:194 -/
noncomputable def out_battery_heat_out (battery_voltage_thevenin r_0 battery_n_parallel battery_n_series battery_current : ℝ) : ℝ :=
  ((q_cell battery_voltage_thevenin r_0 battery_n_parallel battery_current) * battery_n_series)
    * battery_n_parallel

/-- Output `battery_efficiency` of `CellComp.compute`, aviary/models/external_subsystems/detailed_battery/model/cell_comp.py:196 -/
noncomputable def out_battery_efficiency (battery_voltage_thevenin r_0 u_oc battery_n_parallel battery_n_series battery_current : ℝ) : ℝ :=
  1 - ((((q_cell battery_voltage_thevenin r_0 battery_n_parallel battery_current) *
    battery_n_series) * battery_n_parallel) / ((p_tot battery_voltage_thevenin r_0 u_oc
    battery_n_parallel battery_n_series battery_current) + (((q_cell battery_voltage_thevenin
    r_0 battery_n_parallel battery_current) * battery_n_series) * battery_n_parallel)))

/-- Partial of `battery_state_of_charge_rate` with respect to `battery_current` as set by `CellComp`, aviary/models/external_subsystems/detailed_battery/model/cell_comp.py:253 -/
noncomputable def J_battery_state_of_charge_rate__battery_current (battery_cell_energy_capacity_max battery_n_parallel : ℝ) : ℝ :=
  (-1) / ((3600 * battery_cell_energy_capacity_max) * battery_n_parallel)

/-- Partial of `battery_state_of_charge_rate` with respect to `battery_n_parallel` as set by `CellComp`, aviary/models/external_subsystems/detailed_battery/model/cell_comp.py:256 -/
noncomputable def J_battery_state_of_charge_rate__battery_n_parallel (battery_cell_energy_capacity_max battery_n_parallel battery_current : ℝ) : ℝ :=
  battery_current / ((3600 * battery_cell_energy_capacity_max) * (battery_n_parallel ^ 2))

/-- Partial of `battery_state_of_charge_rate` with respect to `battery_cell_energy_capacity_max` as set by `CellComp`, aviary/models/external_subsystems/detailed_battery/model/cell_comp.py:259 -/
noncomputable def J_battery_state_of_charge_rate__battery_cell_energy_capacity_max (battery_cell_energy_capacity_max battery_n_parallel battery_current : ℝ) : ℝ :=
  battery_current / ((3600 * battery_n_parallel) * (battery_cell_energy_capacity_max ^ 2))

/-- Partial of `battery_voltage_thevenin_rate` with respect to `battery_voltage_thevenin` as set by `CellComp`, aviary/models/external_subsystems/detailed_battery/model/cell_comp.py:264 -/
noncomputable def J_battery_voltage_thevenin_rate__battery_voltage_thevenin (c_th r_th : ℝ) : ℝ :=
  (-1) / (r_th * c_th)

/-- Partial of `battery_voltage_thevenin_rate` with respect to `r_th` as set by `CellComp`, aviary/models/external_subsystems/detailed_battery/model/cell_comp.py:267 -/
noncomputable def J_battery_voltage_thevenin_rate__r_th (c_th r_th battery_voltage_thevenin : ℝ) : ℝ :=
  battery_voltage_thevenin / (c_th * (r_th ^ 2))

/-- Partial of `battery_voltage_thevenin_rate` with respect to `c_th` as set by `CellComp`, aviary/models/external_subsystems/detailed_battery/model/cell_comp.py:268 -/
noncomputable def J_battery_voltage_thevenin_rate__c_th (c_th r_th battery_voltage_thevenin battery_n_parallel battery_current : ℝ) : ℝ :=
  ((battery_n_parallel * battery_voltage_thevenin) - (battery_current * r_th)) / (((c_th ^ 2) *
    battery_n_parallel) * r_th)

/-- Partial of `battery_voltage_thevenin_rate` with respect to `battery_current` as set by `CellComp`, aviary/models/external_subsystems/detailed_battery/model/cell_comp.py:271 -/
noncomputable def J_battery_voltage_thevenin_rate__battery_current (c_th battery_n_parallel : ℝ) : ℝ :=
  1 / (c_th * battery_n_parallel)

/-- Partial of `battery_voltage_thevenin_rate` with respect to `battery_n_parallel` as set by `CellComp`, aviary/models/external_subsystems/detailed_battery/model/cell_comp.py:274 -/
noncomputable def J_battery_voltage_thevenin_rate__battery_n_parallel (c_th battery_n_parallel battery_current : ℝ) : ℝ :=
  (-battery_current) / (c_th * (battery_n_parallel ^ 2))

/-- Partial of `battery_voltage` with respect to `u_oc` as set by `CellComp`, aviary/models/external_subsystems/detailed_battery/model/cell_comp.py:278 -/
noncomputable def J_battery_voltage__u_oc (battery_n_series : ℝ) : ℝ := battery_n_series

/-- Partial of `battery_voltage` with respect to `battery_voltage_thevenin` as set by `CellComp`, aviary/models/external_subsystems/detailed_battery/model/cell_comp.py:279 -/
noncomputable def J_battery_voltage__battery_voltage_thevenin (battery_n_series : ℝ) : ℝ :=
  -battery_n_series

/-- Partial of `battery_voltage` with respect to `r_0` as set by `CellComp`, aviary/models/external_subsystems/detailed_battery/model/cell_comp.py:280 -/
noncomputable def J_battery_voltage__r_0 (battery_n_parallel battery_n_series battery_current : ℝ) : ℝ :=
  du_pack__dr_0 battery_n_parallel battery_n_series battery_current

/-- Partial of `battery_voltage` with respect to `battery_n_parallel` as set by `CellComp`, aviary/models/external_subsystems/detailed_battery/model/cell_comp.py:281 -/
noncomputable def J_battery_voltage__battery_n_parallel (r_0 battery_n_parallel battery_n_series battery_current : ℝ) : ℝ :=
  du_pack__dnp r_0 battery_n_parallel battery_n_series battery_current

/-- Partial of `battery_voltage` with respect to `battery_current` as set by `CellComp`, aviary/models/external_subsystems/detailed_battery/model/cell_comp.py:282 -/
noncomputable def J_battery_voltage__battery_current (r_0 battery_n_parallel battery_n_series : ℝ) : ℝ :=
  du_pack__di_pack r_0 battery_n_parallel battery_n_series

/-- Partial of `battery_voltage` with respect to `battery_n_series` as set by `CellComp`, aviary/models/external_subsystems/detailed_battery/model/cell_comp.py:283 -/
noncomputable def J_battery_voltage__battery_n_series (battery_voltage_thevenin r_0 u_oc battery_n_parallel battery_current : ℝ) : ℝ :=
  (u_oc - battery_voltage_thevenin) - ((battery_current / battery_n_parallel) * r_0)

/-- Partial of `battery_heat_out` with respect to `battery_current` as set by `CellComp`, aviary/models/external_subsystems/detailed_battery/model/cell_comp.py:287 -/
noncomputable def J_battery_heat_out__battery_current (battery_voltage_thevenin r_0 battery_n_parallel battery_n_series battery_current : ℝ) : ℝ :=
  battery_n_series * ((((2 * battery_current) * r_0) / battery_n_parallel) +
    battery_voltage_thevenin)

/-- Partial of `battery_heat_out` with respect to `battery_n_parallel` as set by `CellComp`, aviary/models/external_subsystems/detailed_battery/model/cell_comp.py:290 -/
noncomputable def J_battery_heat_out__battery_n_parallel (battery_voltage_thevenin r_0 battery_n_parallel battery_n_series battery_current : ℝ) : ℝ :=
  dq_pack__dnp battery_voltage_thevenin r_0 battery_n_parallel battery_n_series battery_current

/-- Partial of `battery_heat_out` with respect to `r_0` as set by `CellComp`, aviary/models/external_subsystems/detailed_battery/model/cell_comp.py:291 -/
noncomputable def J_battery_heat_out__r_0 (battery_n_parallel battery_n_series battery_current : ℝ) : ℝ :=
  ((battery_current ^ 2) * battery_n_series) / battery_n_parallel

/-- Partial of `battery_heat_out` with respect to `battery_voltage_thevenin` as set by `CellComp`, aviary/models/external_subsystems/detailed_battery/model/cell_comp.py:292 -/
noncomputable def J_battery_heat_out__battery_voltage_thevenin (battery_n_series battery_current : ℝ) : ℝ :=
  dq_pack_du_th battery_n_series battery_current

/-- Partial of `battery_heat_out` with respect to `battery_n_series` as set by `CellComp`, aviary/models/external_subsystems/detailed_battery/model/cell_comp.py:293 -/
noncomputable def J_battery_heat_out__battery_n_series (battery_voltage_thevenin r_0 battery_n_parallel battery_current : ℝ) : ℝ :=
  ((battery_current ^ 2) * (((battery_n_parallel * battery_voltage_thevenin) / battery_current)
    + r_0)) / battery_n_parallel

/-- Partial of `battery_efficiency` with respect to `u_oc` as set by `CellComp`, aviary/models/external_subsystems/detailed_battery/model/cell_comp.py:297 -/
noncomputable def J_battery_efficiency__u_oc (battery_voltage_thevenin r_0 u_oc battery_n_parallel battery_n_series battery_current : ℝ) : ℝ :=
  dpack_eta__du_oc battery_voltage_thevenin r_0 u_oc battery_n_parallel battery_n_series
    battery_current

/-- Partial of `battery_efficiency` with respect to `battery_n_parallel` as set by `CellComp`, aviary/models/external_subsystems/detailed_battery/model/cell_comp.py:298 -/
noncomputable def J_battery_efficiency__battery_n_parallel (battery_voltage_thevenin r_0 u_oc battery_n_parallel battery_n_series battery_current : ℝ) : ℝ :=
  dpack_eta__dnp battery_voltage_thevenin r_0 u_oc battery_n_parallel battery_n_series
    battery_current

/-- Partial of `battery_efficiency` with respect to `battery_current` as set by `CellComp`, aviary/models/external_subsystems/detailed_battery/model/cell_comp.py:299 -/
noncomputable def J_battery_efficiency__battery_current (battery_voltage_thevenin r_0 u_oc battery_n_parallel battery_n_series battery_current : ℝ) : ℝ :=
  dpack_eta__di_pack battery_voltage_thevenin r_0 u_oc battery_n_parallel battery_n_series
    battery_current

/-- Partial of `battery_efficiency` with respect to `r_0` as set by `CellComp`, aviary/models/external_subsystems/detailed_battery/model/cell_comp.py:300 -/
noncomputable def J_battery_efficiency__r_0 (battery_voltage_thevenin r_0 u_oc battery_n_parallel battery_n_series battery_current : ℝ) : ℝ :=
  dpack_eta__dr_0 battery_voltage_thevenin r_0 u_oc battery_n_parallel battery_n_series
    battery_current

/-- Partial of `battery_efficiency` with respect to `battery_voltage_thevenin` as set by `CellComp`, aviary/models/external_subsystems/detailed_battery/model/cell_comp.py:301 -/
noncomputable def J_battery_efficiency__battery_voltage_thevenin (battery_voltage_thevenin r_0 u_oc battery_n_parallel battery_n_series battery_current : ℝ) : ℝ :=
  dpack_eta__du_t battery_voltage_thevenin r_0 u_oc battery_n_parallel battery_n_series
    battery_current

theorem d_battery_state_of_charge_rate__battery_cell_energy_capacity_max
    (battery_cell_energy_capacity_max battery_n_parallel battery_current : ℝ) (h0 : 0 <
    battery_n_parallel) (h1 : 0 < battery_cell_energy_capacity_max) :
    HasDerivAt (fun t => out_battery_state_of_charge_rate t battery_n_parallel battery_current) (J_battery_state_of_charge_rate__battery_cell_energy_capacity_max battery_cell_energy_capacity_max battery_n_parallel battery_current) battery_cell_energy_capacity_max := by
  simp only [out_battery_state_of_charge_rate, J_battery_state_of_charge_rate__battery_cell_energy_capacity_max, i_li]
  (apply hasDerivAt_of_eq; on_goal 1 => (repeat' comp_step))
  all_goals try comp_side
  all_goals try simp only [mul_zero, zero_mul, add_zero, zero_add, sub_zero, zero_sub, mul_one, one_mul]
  all_goals try push_cast
  all_goals comp_eq

theorem d_battery_state_of_charge_rate__battery_n_parallel (battery_cell_energy_capacity_max
    battery_n_parallel battery_current : ℝ) (h0 : 0 < battery_n_parallel) (h1 : 0 <
    battery_cell_energy_capacity_max) :
    HasDerivAt (fun t => out_battery_state_of_charge_rate battery_cell_energy_capacity_max t battery_current) (J_battery_state_of_charge_rate__battery_n_parallel battery_cell_energy_capacity_max battery_n_parallel battery_current) battery_n_parallel := by
  simp only [out_battery_state_of_charge_rate, J_battery_state_of_charge_rate__battery_n_parallel, i_li]
  (apply hasDerivAt_of_eq; on_goal 1 => (repeat' comp_step))
  all_goals try comp_side
  all_goals try simp only [mul_zero, zero_mul, add_zero, zero_add, sub_zero, zero_sub, mul_one, one_mul]
  all_goals try push_cast
  all_goals comp_eq

theorem d_battery_state_of_charge_rate__battery_current (battery_cell_energy_capacity_max
    battery_n_parallel battery_current : ℝ) (h0 : 0 < battery_n_parallel) (h1 : 0 <
    battery_cell_energy_capacity_max) :
    HasDerivAt (fun t => out_battery_state_of_charge_rate battery_cell_energy_capacity_max battery_n_parallel t) (J_battery_state_of_charge_rate__battery_current battery_cell_energy_capacity_max battery_n_parallel) battery_current := by
  simp only [out_battery_state_of_charge_rate, J_battery_state_of_charge_rate__battery_current, i_li]
  (apply hasDerivAt_of_eq; on_goal 1 => (repeat' comp_step))
  all_goals try comp_side
  all_goals try simp only [mul_zero, zero_mul, add_zero, zero_add, sub_zero, zero_sub, mul_one, one_mul]
  all_goals try push_cast
  all_goals comp_eq

theorem d_battery_voltage_thevenin_rate__c_th (c_th r_th battery_voltage_thevenin
    battery_n_parallel battery_current : ℝ) (h0 : 0 < r_th) (h1 : 0 < c_th) (h2 : 0 <
    battery_n_parallel) :
    HasDerivAt (fun t => out_battery_voltage_thevenin_rate t r_th battery_voltage_thevenin battery_n_parallel battery_current) (J_battery_voltage_thevenin_rate__c_th c_th r_th battery_voltage_thevenin battery_n_parallel battery_current) c_th := by
  simp only [out_battery_voltage_thevenin_rate, J_battery_voltage_thevenin_rate__c_th, i_li]
  (apply hasDerivAt_of_eq; on_goal 1 => (repeat' comp_step))
  all_goals try comp_side
  all_goals try simp only [mul_zero, zero_mul, add_zero, zero_add, sub_zero, zero_sub, mul_one, one_mul]
  all_goals try push_cast
  all_goals comp_eq

theorem d_battery_voltage_thevenin_rate__r_th (c_th r_th battery_voltage_thevenin
    battery_n_parallel battery_current : ℝ) (h0 : 0 < r_th) (h1 : 0 < c_th) (h2 : 0 <
    battery_n_parallel) :
    HasDerivAt (fun t => out_battery_voltage_thevenin_rate c_th t battery_voltage_thevenin battery_n_parallel battery_current) (J_battery_voltage_thevenin_rate__r_th c_th r_th battery_voltage_thevenin) r_th := by
  simp only [out_battery_voltage_thevenin_rate, J_battery_voltage_thevenin_rate__r_th, i_li]
  (apply hasDerivAt_of_eq; on_goal 1 => (repeat' comp_step))
  all_goals try comp_side
  all_goals try simp only [mul_zero, zero_mul, add_zero, zero_add, sub_zero, zero_sub, mul_one, one_mul]
  all_goals try push_cast
  all_goals comp_eq

theorem d_battery_voltage_thevenin_rate__battery_voltage_thevenin (c_th r_th
    battery_voltage_thevenin battery_n_parallel battery_current : ℝ) (h0 : 0 < r_th) (h1 : 0 <
    c_th) (h2 : 0 < battery_n_parallel) :
    HasDerivAt (fun t => out_battery_voltage_thevenin_rate c_th r_th t battery_n_parallel battery_current) (J_battery_voltage_thevenin_rate__battery_voltage_thevenin c_th r_th) battery_voltage_thevenin := by
  simp only [out_battery_voltage_thevenin_rate, J_battery_voltage_thevenin_rate__battery_voltage_thevenin, i_li]
  (apply hasDerivAt_of_eq; on_goal 1 => (repeat' comp_step))
  all_goals try comp_side
  all_goals try simp only [mul_zero, zero_mul, add_zero, zero_add, sub_zero, zero_sub, mul_one, one_mul]
  all_goals try push_cast
  all_goals comp_eq

theorem d_battery_voltage_thevenin_rate__battery_n_parallel (c_th r_th battery_voltage_thevenin
    battery_n_parallel battery_current : ℝ) (h0 : 0 < r_th) (h1 : 0 < c_th) (h2 : 0 <
    battery_n_parallel) :
    HasDerivAt (fun t => out_battery_voltage_thevenin_rate c_th r_th battery_voltage_thevenin t battery_current) (J_battery_voltage_thevenin_rate__battery_n_parallel c_th battery_n_parallel battery_current) battery_n_parallel := by
  simp only [out_battery_voltage_thevenin_rate, J_battery_voltage_thevenin_rate__battery_n_parallel, i_li]
  (apply hasDerivAt_of_eq; on_goal 1 => (repeat' comp_step))
  all_goals try comp_side
  all_goals try simp only [mul_zero, zero_mul, add_zero, zero_add, sub_zero, zero_sub, mul_one, one_mul]
  all_goals try push_cast
  all_goals comp_eq

theorem d_battery_voltage_thevenin_rate__battery_current (c_th r_th battery_voltage_thevenin
    battery_n_parallel battery_current : ℝ) (h0 : 0 < r_th) (h1 : 0 < c_th) (h2 : 0 <
    battery_n_parallel) :
    HasDerivAt (fun t => out_battery_voltage_thevenin_rate c_th r_th battery_voltage_thevenin battery_n_parallel t) (J_battery_voltage_thevenin_rate__battery_current c_th battery_n_parallel) battery_current := by
  simp only [out_battery_voltage_thevenin_rate, J_battery_voltage_thevenin_rate__battery_current, i_li]
  (apply hasDerivAt_of_eq; on_goal 1 => (repeat' comp_step))
  all_goals try comp_side
  all_goals try simp only [mul_zero, zero_mul, add_zero, zero_add, sub_zero, zero_sub, mul_one, one_mul]
  all_goals try push_cast
  all_goals comp_eq

theorem d_battery_voltage__battery_voltage_thevenin (battery_voltage_thevenin r_0 u_oc
    battery_n_parallel battery_n_series battery_current : ℝ) (h0 : 0 < battery_n_parallel) :
    HasDerivAt (fun t => out_battery_voltage t r_0 u_oc battery_n_parallel battery_n_series battery_current) (J_battery_voltage__battery_voltage_thevenin battery_n_series) battery_voltage_thevenin := by
  simp only [out_battery_voltage, J_battery_voltage__battery_voltage_thevenin, u_l, i_li]
  (apply hasDerivAt_of_eq; on_goal 1 => (repeat' comp_step))
  all_goals try comp_side
  all_goals try simp only [mul_zero, zero_mul, add_zero, zero_add, sub_zero, zero_sub, mul_one, one_mul]
  all_goals try push_cast
  all_goals comp_eq

theorem d_battery_voltage__r_0 (battery_voltage_thevenin r_0 u_oc battery_n_parallel
    battery_n_series battery_current : ℝ) (h0 : 0 < battery_n_parallel) :
    HasDerivAt (fun t => out_battery_voltage battery_voltage_thevenin t u_oc battery_n_parallel battery_n_series battery_current) (J_battery_voltage__r_0 battery_n_parallel battery_n_series battery_current) r_0 := by
  simp only [out_battery_voltage, J_battery_voltage__r_0, du_pack__dr_0, u_l, i_li]
  (apply hasDerivAt_of_eq; on_goal 1 => (repeat' comp_step))
  all_goals try comp_side
  all_goals try simp only [mul_zero, zero_mul, add_zero, zero_add, sub_zero, zero_sub, mul_one, one_mul]
  all_goals try push_cast
  all_goals comp_eq

theorem d_battery_voltage__u_oc (battery_voltage_thevenin r_0 u_oc battery_n_parallel
    battery_n_series battery_current : ℝ) (h0 : 0 < battery_n_parallel) :
    HasDerivAt (fun t => out_battery_voltage battery_voltage_thevenin r_0 t battery_n_parallel battery_n_series battery_current) (J_battery_voltage__u_oc battery_n_series) u_oc := by
  simp only [out_battery_voltage, J_battery_voltage__u_oc, u_l, i_li]
  (apply hasDerivAt_of_eq; on_goal 1 => (repeat' comp_step))
  all_goals try comp_side
  all_goals try simp only [mul_zero, zero_mul, add_zero, zero_add, sub_zero, zero_sub, mul_one, one_mul]
  all_goals try push_cast
  all_goals comp_eq

theorem d_battery_voltage__battery_n_parallel (battery_voltage_thevenin r_0 u_oc
    battery_n_parallel battery_n_series battery_current : ℝ) (h0 : 0 < battery_n_parallel) :
    HasDerivAt (fun t => out_battery_voltage battery_voltage_thevenin r_0 u_oc t battery_n_series battery_current) (J_battery_voltage__battery_n_parallel r_0 battery_n_parallel battery_n_series battery_current) battery_n_parallel := by
  simp only [out_battery_voltage, J_battery_voltage__battery_n_parallel, du_pack__dnp, du_l__dnp, di_li__dnp, u_l, i_li]
  (apply hasDerivAt_of_eq; on_goal 1 => (repeat' comp_step))
  all_goals try comp_side
  all_goals try simp only [mul_zero, zero_mul, add_zero, zero_add, sub_zero, zero_sub, mul_one, one_mul]
  all_goals try push_cast
  all_goals comp_eq

theorem d_battery_voltage__battery_n_series (battery_voltage_thevenin r_0 u_oc battery_n_parallel
    battery_n_series battery_current : ℝ) (h0 : 0 < battery_n_parallel) :
    HasDerivAt (fun t => out_battery_voltage battery_voltage_thevenin r_0 u_oc battery_n_parallel t battery_current) (J_battery_voltage__battery_n_series battery_voltage_thevenin r_0 u_oc battery_n_parallel battery_current) battery_n_series := by
  simp only [out_battery_voltage, J_battery_voltage__battery_n_series, u_l, i_li]
  (apply hasDerivAt_of_eq; on_goal 1 => (repeat' comp_step))
  all_goals try comp_side
  all_goals try simp only [mul_zero, zero_mul, add_zero, zero_add, sub_zero, zero_sub, mul_one, one_mul]
  all_goals try push_cast
  all_goals comp_eq

theorem d_battery_voltage__battery_current (battery_voltage_thevenin r_0 u_oc battery_n_parallel
    battery_n_series battery_current : ℝ) (h0 : 0 < battery_n_parallel) :
    HasDerivAt (fun t => out_battery_voltage battery_voltage_thevenin r_0 u_oc battery_n_parallel battery_n_series t) (J_battery_voltage__battery_current r_0 battery_n_parallel battery_n_series) battery_current := by
  simp only [out_battery_voltage, J_battery_voltage__battery_current, du_pack__di_pack, u_l, i_li]
  (apply hasDerivAt_of_eq; on_goal 1 => (repeat' comp_step))
  all_goals try comp_side
  all_goals try simp only [mul_zero, zero_mul, add_zero, zero_add, sub_zero, zero_sub, mul_one, one_mul]
  all_goals try push_cast
  all_goals comp_eq

theorem d_battery_heat_out__battery_voltage_thevenin (battery_voltage_thevenin r_0
    battery_n_parallel battery_n_series battery_current : ℝ) (h0 : 0 < battery_n_parallel) (h1 : 0
    < battery_current) :
    HasDerivAt (fun t => out_battery_heat_out t r_0 battery_n_parallel battery_n_series battery_current) (J_battery_heat_out__battery_voltage_thevenin battery_n_series battery_current) battery_voltage_thevenin := by
  simp only [out_battery_heat_out, J_battery_heat_out__battery_voltage_thevenin, dq_pack_du_th, q_cell, i_li]
  (apply hasDerivAt_of_eq; on_goal 1 => (repeat' comp_step))
  all_goals try comp_side
  all_goals try simp only [mul_zero, zero_mul, add_zero, zero_add, sub_zero, zero_sub, mul_one, one_mul]
  all_goals try push_cast
  all_goals comp_eq

theorem d_battery_heat_out__r_0 (battery_voltage_thevenin r_0 battery_n_parallel battery_n_series
    battery_current : ℝ) (h0 : 0 < battery_n_parallel) (h1 : 0 < battery_current) :
    HasDerivAt (fun t => out_battery_heat_out battery_voltage_thevenin t battery_n_parallel battery_n_series battery_current) (J_battery_heat_out__r_0 battery_n_parallel battery_n_series battery_current) r_0 := by
  simp only [out_battery_heat_out, J_battery_heat_out__r_0, q_cell, i_li]
  (apply hasDerivAt_of_eq; on_goal 1 => (repeat' comp_step))
  all_goals try comp_side
  all_goals try simp only [mul_zero, zero_mul, add_zero, zero_add, sub_zero, zero_sub, mul_one, one_mul]
  all_goals try push_cast
  all_goals comp_eq

theorem d_battery_heat_out__battery_n_parallel (battery_voltage_thevenin r_0 battery_n_parallel
    battery_n_series battery_current : ℝ) (h0 : 0 < battery_n_parallel) (h1 : 0 < battery_current)
    :
    HasDerivAt (fun t => out_battery_heat_out battery_voltage_thevenin r_0 t battery_n_series battery_current) (J_battery_heat_out__battery_n_parallel battery_voltage_thevenin r_0 battery_n_parallel battery_n_series battery_current) battery_n_parallel := by
  simp only [out_battery_heat_out, J_battery_heat_out__battery_n_parallel, dq_pack__dnp, dq_cell__dnp, di_li__dnp, q_cell, i_li]
  (apply hasDerivAt_of_eq; on_goal 1 => (repeat' comp_step))
  all_goals try comp_side
  all_goals try simp only [mul_zero, zero_mul, add_zero, zero_add, sub_zero, zero_sub, mul_one, one_mul]
  all_goals try push_cast
  all_goals comp_eq

theorem d_battery_heat_out__battery_n_series (battery_voltage_thevenin r_0 battery_n_parallel
    battery_n_series battery_current : ℝ) (h0 : 0 < battery_n_parallel) (h1 : 0 < battery_current)
    :
    HasDerivAt (fun t => out_battery_heat_out battery_voltage_thevenin r_0 battery_n_parallel t battery_current) (J_battery_heat_out__battery_n_series battery_voltage_thevenin r_0 battery_n_parallel battery_current) battery_n_series := by
  simp only [out_battery_heat_out, J_battery_heat_out__battery_n_series, q_cell, i_li]
  (apply hasDerivAt_of_eq; on_goal 1 => (repeat' comp_step))
  all_goals try comp_side
  all_goals try simp only [mul_zero, zero_mul, add_zero, zero_add, sub_zero, zero_sub, mul_one, one_mul]
  all_goals try push_cast
  all_goals comp_eq

theorem d_battery_heat_out__battery_current (battery_voltage_thevenin r_0 battery_n_parallel
    battery_n_series battery_current : ℝ) (h0 : 0 < battery_n_parallel) (h1 : 0 < battery_current)
    :
    HasDerivAt (fun t => out_battery_heat_out battery_voltage_thevenin r_0 battery_n_parallel battery_n_series t) (J_battery_heat_out__battery_current battery_voltage_thevenin r_0 battery_n_parallel battery_n_series battery_current) battery_current := by
  simp only [out_battery_heat_out, J_battery_heat_out__battery_current, q_cell, i_li]
  (apply hasDerivAt_of_eq; on_goal 1 => (repeat' comp_step))
  all_goals try comp_side
  all_goals try simp only [mul_zero, zero_mul, add_zero, zero_add, sub_zero, zero_sub, mul_one, one_mul]
  all_goals try push_cast
  all_goals comp_eq

theorem d_battery_efficiency__battery_voltage_thevenin (battery_voltage_thevenin r_0 u_oc
    battery_n_parallel battery_n_series battery_current : ℝ) (h0 : 0 < battery_n_parallel) (h1 : 0
    < battery_current) (h2 : (battery_current * (((u_oc - battery_voltage_thevenin) -
    ((battery_current / battery_n_parallel) * r_0)) * battery_n_series)) + (((((battery_current /
    battery_n_parallel) ^ 2) * (r_0 + (battery_voltage_thevenin / (battery_current /
    battery_n_parallel)))) * battery_n_series) * battery_n_parallel) ≠ 0) (h3 : (battery_current *
    (((u_oc - battery_voltage_thevenin) - ((battery_current / battery_n_parallel) * r_0)) *
    battery_n_series)) + (((((battery_current / battery_n_parallel) ^ 2) * (r_0 +
    (battery_voltage_thevenin / (battery_current / battery_n_parallel)))) * battery_n_series) *
    battery_n_parallel) ≠ 0) :
    HasDerivAt (fun t => out_battery_efficiency t r_0 u_oc battery_n_parallel battery_n_series battery_current) (J_battery_efficiency__battery_voltage_thevenin battery_voltage_thevenin r_0 u_oc battery_n_parallel battery_n_series battery_current) battery_voltage_thevenin := by
  simp only [out_battery_efficiency, J_battery_efficiency__battery_voltage_thevenin, dpack_eta__du_t, dptot__du_th, q_pack, p_tot_2, u_pack, dq_pack_du_th, p_tot, u_l, q_cell, i_li]
  (apply hasDerivAt_of_eq; on_goal 1 => (repeat' comp_step))
  all_goals try comp_side
  all_goals try simp only [mul_zero, zero_mul, add_zero, zero_add, sub_zero, zero_sub, mul_one, one_mul]
  all_goals try push_cast
  all_goals comp_eq

theorem d_battery_efficiency__r_0 (battery_voltage_thevenin r_0 u_oc battery_n_parallel
    battery_n_series battery_current : ℝ) (h0 : 0 < battery_n_parallel) (h1 : 0 < battery_current)
    (h2 : (battery_current * (((u_oc - battery_voltage_thevenin) - ((battery_current /
    battery_n_parallel) * r_0)) * battery_n_series)) + (((((battery_current / battery_n_parallel)
    ^ 2) * (r_0 + (battery_voltage_thevenin / (battery_current / battery_n_parallel)))) *
    battery_n_series) * battery_n_parallel) ≠ 0) (h3 : (battery_current * (((u_oc -
    battery_voltage_thevenin) - ((battery_current / battery_n_parallel) * r_0)) *
    battery_n_series)) + (((((battery_current / battery_n_parallel) ^ 2) * (r_0 +
    (battery_voltage_thevenin / (battery_current / battery_n_parallel)))) * battery_n_series) *
    battery_n_parallel) ≠ 0) :
    HasDerivAt (fun t => out_battery_efficiency battery_voltage_thevenin t u_oc battery_n_parallel battery_n_series battery_current) (J_battery_efficiency__r_0 battery_voltage_thevenin r_0 u_oc battery_n_parallel battery_n_series battery_current) r_0 := by
  simp only [out_battery_efficiency, J_battery_efficiency__r_0, dpack_eta__dr_0, dptot__dr_0, du_pack__dr_0, q_pack, p_tot_2, u_pack, dq_pack__dr_0, p_tot, u_l, q_cell, i_li]
  (apply hasDerivAt_of_eq; on_goal 1 => (repeat' comp_step))
  all_goals try comp_side
  all_goals try simp only [mul_zero, zero_mul, add_zero, zero_add, sub_zero, zero_sub, mul_one, one_mul]
  all_goals try push_cast
  all_goals comp_eq

theorem d_battery_efficiency__u_oc (battery_voltage_thevenin r_0 u_oc battery_n_parallel
    battery_n_series battery_current : ℝ) (h0 : 0 < battery_n_parallel) (h1 : 0 < battery_current)
    (h2 : (battery_current * (((u_oc - battery_voltage_thevenin) - ((battery_current /
    battery_n_parallel) * r_0)) * battery_n_series)) + (((((battery_current / battery_n_parallel)
    ^ 2) * (r_0 + (battery_voltage_thevenin / (battery_current / battery_n_parallel)))) *
    battery_n_series) * battery_n_parallel) ≠ 0) (h3 : (battery_current * (((u_oc -
    battery_voltage_thevenin) - ((battery_current / battery_n_parallel) * r_0)) *
    battery_n_series)) + (((((battery_current / battery_n_parallel) ^ 2) * (r_0 +
    (battery_voltage_thevenin / (battery_current / battery_n_parallel)))) * battery_n_series) *
    battery_n_parallel) ≠ 0) :
    HasDerivAt (fun t => out_battery_efficiency battery_voltage_thevenin r_0 t battery_n_parallel battery_n_series battery_current) (J_battery_efficiency__u_oc battery_voltage_thevenin r_0 u_oc battery_n_parallel battery_n_series battery_current) u_oc := by
  simp only [out_battery_efficiency, J_battery_efficiency__u_oc, dpack_eta__du_oc, dptot__du_oc, p_tot_2, u_pack, q_pack, p_tot, u_l, q_cell, i_li]
  (apply hasDerivAt_of_eq; on_goal 1 => (repeat' comp_step))
  all_goals try comp_side
  all_goals try simp only [mul_zero, zero_mul, add_zero, zero_add, sub_zero, zero_sub, mul_one, one_mul]
  all_goals try push_cast
  all_goals comp_eq

theorem d_battery_efficiency__battery_n_parallel (battery_voltage_thevenin r_0 u_oc
    battery_n_parallel battery_n_series battery_current : ℝ) (h0 : 0 < battery_n_parallel) (h1 : 0
    < battery_current) (h2 : (battery_current * (((u_oc - battery_voltage_thevenin) -
    ((battery_current / battery_n_parallel) * r_0)) * battery_n_series)) + (((((battery_current /
    battery_n_parallel) ^ 2) * (r_0 + (battery_voltage_thevenin / (battery_current /
    battery_n_parallel)))) * battery_n_series) * battery_n_parallel) ≠ 0) (h3 : (battery_current *
    (((u_oc - battery_voltage_thevenin) - ((battery_current / battery_n_parallel) * r_0)) *
    battery_n_series)) + (((((battery_current / battery_n_parallel) ^ 2) * (r_0 +
    (battery_voltage_thevenin / (battery_current / battery_n_parallel)))) * battery_n_series) *
    battery_n_parallel) ≠ 0) :
    HasDerivAt (fun t => out_battery_efficiency battery_voltage_thevenin r_0 u_oc t battery_n_series battery_current) (J_battery_efficiency__battery_n_parallel battery_voltage_thevenin r_0 u_oc battery_n_parallel battery_n_series battery_current) battery_n_parallel := by
  simp only [out_battery_efficiency, J_battery_efficiency__battery_n_parallel, dpack_eta__dnp, dptot__dnp, du_pack__dnp, du_l__dnp, q_pack, p_tot_2, u_pack, dq_pack__dnp, dq_cell__dnp, di_li__dnp, p_tot, u_l, q_cell, i_li]
  (apply hasDerivAt_of_eq; on_goal 1 => (repeat' comp_step))
  all_goals try comp_side
  all_goals try simp only [mul_zero, zero_mul, add_zero, zero_add, sub_zero, zero_sub, mul_one, one_mul]
  all_goals try push_cast
  all_goals comp_eq

theorem d_battery_efficiency__battery_current (battery_voltage_thevenin r_0 u_oc
    battery_n_parallel battery_n_series battery_current : ℝ) (h0 : 0 < battery_n_parallel) (h1 : 0
    < battery_current) (h2 : (battery_current * (((u_oc - battery_voltage_thevenin) -
    ((battery_current / battery_n_parallel) * r_0)) * battery_n_series)) + (((((battery_current /
    battery_n_parallel) ^ 2) * (r_0 + (battery_voltage_thevenin / (battery_current /
    battery_n_parallel)))) * battery_n_series) * battery_n_parallel) ≠ 0) (h3 : (battery_current *
    (((u_oc - battery_voltage_thevenin) - ((battery_current / battery_n_parallel) * r_0)) *
    battery_n_series)) + (((((battery_current / battery_n_parallel) ^ 2) * (r_0 +
    (battery_voltage_thevenin / (battery_current / battery_n_parallel)))) * battery_n_series) *
    battery_n_parallel) ≠ 0) :
    HasDerivAt (fun t => out_battery_efficiency battery_voltage_thevenin r_0 u_oc battery_n_parallel battery_n_series t) (J_battery_efficiency__battery_current battery_voltage_thevenin r_0 u_oc battery_n_parallel battery_n_series battery_current) battery_current := by
  simp only [out_battery_efficiency, J_battery_efficiency__battery_current, dpack_eta__di_pack, dptot__di_pack, du_pack__di_pack, q_pack, p_tot_2, u_pack, dq_pack__di_pack, dq_cell__di_pack, di_li__di_pack, p_tot, u_l, q_cell, i_li]
  (apply hasDerivAt_of_eq; on_goal 1 => (repeat' comp_step))
  all_goals try comp_side
  all_goals try simp only [mul_zero, zero_mul, add_zero, zero_add, sub_zero, zero_sub, mul_one, one_mul]
  all_goals try push_cast
  all_goals comp_eq

/-- Every partial derivative set by `CellComp` is the derivative of its output. -/
theorem partials (c_th r_th battery_voltage_thevenin r_0 battery_cell_energy_capacity_max u_oc
    battery_n_parallel battery_n_series battery_current : ℝ) (h0 : 0 < battery_n_parallel) (h1 : 0
    < battery_cell_energy_capacity_max) (h2 : 0 < r_th) (h3 : 0 < c_th) (h4 : 0 < battery_current)
    (h5 : (battery_current * (((u_oc - battery_voltage_thevenin) - ((battery_current /
    battery_n_parallel) * r_0)) * battery_n_series)) + (((((battery_current / battery_n_parallel)
    ^ 2) * (r_0 + (battery_voltage_thevenin / (battery_current / battery_n_parallel)))) *
    battery_n_series) * battery_n_parallel) ≠ 0) :
    HasDerivAt (fun t => out_battery_state_of_charge_rate t battery_n_parallel battery_current)
      (J_battery_state_of_charge_rate__battery_cell_energy_capacity_max
      battery_cell_energy_capacity_max battery_n_parallel battery_current)
      battery_cell_energy_capacity_max ∧
    HasDerivAt (fun t => out_battery_state_of_charge_rate battery_cell_energy_capacity_max t
      battery_current) (J_battery_state_of_charge_rate__battery_n_parallel
      battery_cell_energy_capacity_max battery_n_parallel battery_current) battery_n_parallel ∧
    HasDerivAt (fun t => out_battery_state_of_charge_rate battery_cell_energy_capacity_max
      battery_n_parallel t) (J_battery_state_of_charge_rate__battery_current
      battery_cell_energy_capacity_max battery_n_parallel) battery_current ∧
    HasDerivAt (fun t => out_battery_voltage_thevenin_rate t r_th battery_voltage_thevenin
      battery_n_parallel battery_current) (J_battery_voltage_thevenin_rate__c_th c_th r_th
      battery_voltage_thevenin battery_n_parallel battery_current) c_th ∧
    HasDerivAt (fun t => out_battery_voltage_thevenin_rate c_th t battery_voltage_thevenin
      battery_n_parallel battery_current) (J_battery_voltage_thevenin_rate__r_th c_th r_th
      battery_voltage_thevenin) r_th ∧
    HasDerivAt (fun t => out_battery_voltage_thevenin_rate c_th r_th t battery_n_parallel
      battery_current) (J_battery_voltage_thevenin_rate__battery_voltage_thevenin c_th r_th)
      battery_voltage_thevenin ∧
    HasDerivAt (fun t => out_battery_voltage_thevenin_rate c_th r_th battery_voltage_thevenin t
      battery_current) (J_battery_voltage_thevenin_rate__battery_n_parallel c_th
      battery_n_parallel battery_current) battery_n_parallel ∧
    HasDerivAt (fun t => out_battery_voltage_thevenin_rate c_th r_th battery_voltage_thevenin
      battery_n_parallel t) (J_battery_voltage_thevenin_rate__battery_current c_th
      battery_n_parallel) battery_current ∧
    HasDerivAt (fun t => out_battery_voltage t r_0 u_oc battery_n_parallel battery_n_series
      battery_current) (J_battery_voltage__battery_voltage_thevenin battery_n_series)
      battery_voltage_thevenin ∧
    HasDerivAt (fun t => out_battery_voltage battery_voltage_thevenin t u_oc battery_n_parallel
      battery_n_series battery_current) (J_battery_voltage__r_0 battery_n_parallel
      battery_n_series battery_current) r_0 ∧
    HasDerivAt (fun t => out_battery_voltage battery_voltage_thevenin r_0 t battery_n_parallel
      battery_n_series battery_current) (J_battery_voltage__u_oc battery_n_series) u_oc ∧
    HasDerivAt (fun t => out_battery_voltage battery_voltage_thevenin r_0 u_oc t battery_n_series
      battery_current) (J_battery_voltage__battery_n_parallel r_0 battery_n_parallel
      battery_n_series battery_current) battery_n_parallel ∧
    HasDerivAt (fun t => out_battery_voltage battery_voltage_thevenin r_0 u_oc battery_n_parallel t
      battery_current) (J_battery_voltage__battery_n_series battery_voltage_thevenin r_0 u_oc
      battery_n_parallel battery_current) battery_n_series ∧
    HasDerivAt (fun t => out_battery_voltage battery_voltage_thevenin r_0 u_oc battery_n_parallel
      battery_n_series t) (J_battery_voltage__battery_current r_0 battery_n_parallel
      battery_n_series) battery_current ∧
    HasDerivAt (fun t => out_battery_heat_out t r_0 battery_n_parallel battery_n_series
      battery_current) (J_battery_heat_out__battery_voltage_thevenin battery_n_series
      battery_current) battery_voltage_thevenin ∧
    HasDerivAt (fun t => out_battery_heat_out battery_voltage_thevenin t battery_n_parallel
      battery_n_series battery_current) (J_battery_heat_out__r_0 battery_n_parallel
      battery_n_series battery_current) r_0 ∧
    HasDerivAt (fun t => out_battery_heat_out battery_voltage_thevenin r_0 t battery_n_series
      battery_current) (J_battery_heat_out__battery_n_parallel battery_voltage_thevenin r_0
      battery_n_parallel battery_n_series battery_current) battery_n_parallel ∧
    HasDerivAt (fun t => out_battery_heat_out battery_voltage_thevenin r_0 battery_n_parallel t
      battery_current) (J_battery_heat_out__battery_n_series battery_voltage_thevenin r_0
      battery_n_parallel battery_current) battery_n_series ∧
    HasDerivAt (fun t => out_battery_heat_out battery_voltage_thevenin r_0 battery_n_parallel
      battery_n_series t) (J_battery_heat_out__battery_current battery_voltage_thevenin r_0
      battery_n_parallel battery_n_series battery_current) battery_current ∧
    HasDerivAt (fun t => out_battery_efficiency t r_0 u_oc battery_n_parallel battery_n_series
      battery_current) (J_battery_efficiency__battery_voltage_thevenin battery_voltage_thevenin
      r_0 u_oc battery_n_parallel battery_n_series battery_current) battery_voltage_thevenin ∧
    HasDerivAt (fun t => out_battery_efficiency battery_voltage_thevenin t u_oc battery_n_parallel
      battery_n_series battery_current) (J_battery_efficiency__r_0 battery_voltage_thevenin r_0
      u_oc battery_n_parallel battery_n_series battery_current) r_0 ∧
    HasDerivAt (fun t => out_battery_efficiency battery_voltage_thevenin r_0 t battery_n_parallel
      battery_n_series battery_current) (J_battery_efficiency__u_oc battery_voltage_thevenin r_0
      u_oc battery_n_parallel battery_n_series battery_current) u_oc ∧
    HasDerivAt (fun t => out_battery_efficiency battery_voltage_thevenin r_0 u_oc t battery_n_series
      battery_current) (J_battery_efficiency__battery_n_parallel battery_voltage_thevenin r_0 u_oc
      battery_n_parallel battery_n_series battery_current) battery_n_parallel ∧
    HasDerivAt (fun t => out_battery_efficiency battery_voltage_thevenin r_0 u_oc battery_n_parallel
      battery_n_series t) (J_battery_efficiency__battery_current battery_voltage_thevenin r_0 u_oc
      battery_n_parallel battery_n_series battery_current) battery_current :=
  ⟨d_battery_state_of_charge_rate__battery_cell_energy_capacity_max _ _ _ h0 h1,
    d_battery_state_of_charge_rate__battery_n_parallel _ _ _ h0 h1,
    d_battery_state_of_charge_rate__battery_current _ _ _ h0 h1,
    d_battery_voltage_thevenin_rate__c_th _ _ _ _ _ h2 h3 h0,
    d_battery_voltage_thevenin_rate__r_th _ _ _ _ _ h2 h3 h0,
    d_battery_voltage_thevenin_rate__battery_voltage_thevenin _ _ _ _ _ h2 h3 h0,
    d_battery_voltage_thevenin_rate__battery_n_parallel _ _ _ _ _ h2 h3 h0,
    d_battery_voltage_thevenin_rate__battery_current _ _ _ _ _ h2 h3 h0,
    d_battery_voltage__battery_voltage_thevenin _ _ _ _ _ _ h0, d_battery_voltage__r_0 _ _ _ _ _ _
    h0, d_battery_voltage__u_oc _ _ _ _ _ _ h0, d_battery_voltage__battery_n_parallel _ _ _ _ _ _
    h0, d_battery_voltage__battery_n_series _ _ _ _ _ _ h0, d_battery_voltage__battery_current _ _
    _ _ _ _ h0, d_battery_heat_out__battery_voltage_thevenin _ _ _ _ _ h0 h4,
    d_battery_heat_out__r_0 _ _ _ _ _ h0 h4, d_battery_heat_out__battery_n_parallel _ _ _ _ _ h0
    h4, d_battery_heat_out__battery_n_series _ _ _ _ _ h0 h4, d_battery_heat_out__battery_current
    _ _ _ _ _ h0 h4, d_battery_efficiency__battery_voltage_thevenin _ _ _ _ _ _ h0 h4 h5 h5,
    d_battery_efficiency__r_0 _ _ _ _ _ _ h0 h4 h5 h5, d_battery_efficiency__u_oc _ _ _ _ _ _ h0
    h4 h5 h5, d_battery_efficiency__battery_n_parallel _ _ _ _ _ _ h0 h4 h5 h5,
    d_battery_efficiency__battery_current _ _ _ _ _ _ h0 h4 h5 h5⟩

example : ∃ c_th r_th battery_voltage_thevenin r_0 battery_cell_energy_capacity_max u_oc
      battery_n_parallel battery_n_series battery_current : ℝ,
      0 < battery_n_parallel ∧
      0 < battery_cell_energy_capacity_max ∧
      0 < r_th ∧
      0 < c_th ∧
      0 < battery_current ∧
      (battery_current * (((u_oc - battery_voltage_thevenin) - ((battery_current / battery_n_parallel) *
        r_0)) * battery_n_series)) + (((((battery_current / battery_n_parallel) ^ 2) * (r_0 +
        (battery_voltage_thevenin / (battery_current / battery_n_parallel)))) * battery_n_series)
        * battery_n_parallel) ≠ 0 :=
  ⟨1, 1, 1, 1, 1, 1, 1, 1, 1, by comp_example, by comp_example, by comp_example, by comp_example,
    by comp_example, by comp_example⟩

end Verif.Comp.ModelsExternalSubsystemsDetailedBatteryModelCellComp.CellComp

