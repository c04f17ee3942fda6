import Verif.Lemmas.CompDeriv

/-! # Partial derivatives of the components of `aviary/subsystems/mass/gasp_based/avionics.py`

One node of a vector component is modelled over the real numbers.  Each option that selects a
branch is fixed, one namespace per choice.  `out_x` is the output `x`, `J_x__y` the entry that
`compute_partials` (or `declare_partials` with `val`) assigns, `d_x__y` the proof that the entry is
the derivative.  Inputs an output does not take as argument have no influence on it. -/

set_option linter.all false

namespace Verif.Comp.MassGaspBasedAvionics.AvionicsMass_smooth
open Real

/-- aviary/subsystems/mass/gasp_based/avionics.py:47 -/
noncomputable abbrev avionics_wt (design_gross_mass : ℝ) : ℝ :=
  (17769 / 500) * (exp ((1 / 5000) * design_gross_mass))

/-- aviary/subsystems/mass/gasp_based/avionics.py:38 -/
noncomputable abbrev avionics_wt_2 (crewpayload_design_num_passengers design_gross_mass : ℝ) : ℝ :=
  if crewpayload_design_num_passengers < 20 then (avionics_wt design_gross_mass) else 27

/-- aviary/subsystems/mass/gasp_based/avionics.py:61 -/
noncomputable abbrev avionics_wt_3 (crewpayload_design_num_passengers design_gross_mass : ℝ) : ℝ :=
  if (50 < crewpayload_design_num_passengers ∧ crewpayload_design_num_passengers ≤ 100) then 600
    else (avionics_wt_2 crewpayload_design_num_passengers design_gross_mass)

/-- aviary/subsystems/mass/gasp_based/avionics.py:59 -/
noncomputable abbrev avionics_wt_4 (crewpayload_design_num_passengers design_gross_mass : ℝ) : ℝ :=
  if (30 ≤ crewpayload_design_num_passengers ∧ crewpayload_design_num_passengers ≤ 50) then 500
    else (avionics_wt_3 crewpayload_design_num_passengers design_gross_mass)

/-- aviary/subsystems/mass/gasp_based/avionics.py:57 -/
noncomputable abbrev avionics_wt_5 (crewpayload_design_num_passengers design_gross_mass : ℝ) : ℝ :=
  if (20 ≤ crewpayload_design_num_passengers ∧ crewpayload_design_num_passengers < 30) then 400
    else (avionics_wt_4 crewpayload_design_num_passengers design_gross_mass)

/-- aviary/subsystems/mass/gasp_based/avionics.py:64 -/
noncomputable abbrev avionics_wt_6 (crewpayload_design_num_passengers : ℝ) : ℝ :=
  ((14 / 5) * crewpayload_design_num_passengers) + 1010

/-- aviary/subsystems/mass/gasp_based/avionics.py:63 -/
noncomputable abbrev avionics_wt_7 (crewpayload_design_num_passengers design_gross_mass : ℝ) : ℝ :=
  if 100 < crewpayload_design_num_passengers then (avionics_wt_6
    crewpayload_design_num_passengers) else (avionics_wt_5 crewpayload_design_num_passengers
    design_gross_mass)

/-- aviary/subsystems/mass/gasp_based/avionics.py:76 -/
noncomputable abbrev davionics_wt_dgross_wt_initial (design_gross_mass : ℝ) : ℝ :=
  (17769 / 2500000) * (exp ((1 / 5000) * design_gross_mass))

/-- aviary/subsystems/mass/gasp_based/avionics.py:74 -/
noncomputable abbrev davionics_wt_dgross_wt_initial_2 (crewpayload_design_num_passengers design_gross_mass : ℝ) : ℝ :=
  if crewpayload_design_num_passengers < 20 then (davionics_wt_dgross_wt_initial
    design_gross_mass) else 0

/-- Output `avionics_mass` of `AvionicsMass.compute`, aviary/subsystems/mass/gasp_based/avionics.py:66 -/
noncomputable def out_avionics_mass (crewpayload_design_num_passengers design_gross_mass : ℝ) : ℝ :=
  avionics_wt_7 crewpayload_design_num_passengers design_gross_mass

/-- Partial of `avionics_mass` with respect to `design_gross_mass` as set by `AvionicsMass`, aviary/subsystems/mass/gasp_based/avionics.py:82 -/
noncomputable def J_avionics_mass__design_gross_mass (crewpayload_design_num_passengers design_gross_mass : ℝ) : ℝ :=
  davionics_wt_dgross_wt_initial_2 crewpayload_design_num_passengers design_gross_mass

theorem d_avionics_mass__design_gross_mass (crewpayload_design_num_passengers design_gross_mass :
    ℝ)  :
    HasDerivAt (fun t => out_avionics_mass crewpayload_design_num_passengers t) (J_avionics_mass__design_gross_mass crewpayload_design_num_passengers design_gross_mass) design_gross_mass := by
  simp only [out_avionics_mass, J_avionics_mass__design_gross_mass, davionics_wt_dgross_wt_initial_2, davionics_wt_dgross_wt_initial, avionics_wt_7, avionics_wt_5, avionics_wt_4, avionics_wt_3, avionics_wt_2, avionics_wt, avionics_wt_6]
  try split_ifs
  all_goals (apply hasDerivAt_of_eq; on_goal 1 => (repeat' comp_step))
  all_goals try comp_side
  all_goals try split_ifs
  all_goals try (exfalso; linarith)
  all_goals try simp only [mul_zero, zero_mul, add_zero, zero_add, sub_zero, zero_sub, mul_one, one_mul]
  all_goals try push_cast
  all_goals comp_eq

/-- Every partial derivative set by `AvionicsMass` is the derivative of its output. -/
theorem partials (crewpayload_design_num_passengers design_gross_mass : ℝ) :
    HasDerivAt (fun t => out_avionics_mass crewpayload_design_num_passengers t)
      (J_avionics_mass__design_gross_mass crewpayload_design_num_passengers design_gross_mass)
      design_gross_mass :=
  d_avionics_mass__design_gross_mass _ _

end Verif.Comp.MassGaspBasedAvionics.AvionicsMass_smooth

namespace Verif.Comp.MassGaspBasedAvionics.AvionicsMass_no_smooth
open Real

/-- aviary/subsystems/mass/gasp_based/avionics.py:49 -/
noncomputable abbrev avionics_wt (design_gross_mass : ℝ) : ℝ :=
  if 3000 ≤ design_gross_mass then 65 else 27

/-- aviary/subsystems/mass/gasp_based/avionics.py:51 -/
noncomputable abbrev avionics_wt_2 (design_gross_mass : ℝ) : ℝ :=
  if 5500 ≤ design_gross_mass then 113 else (avionics_wt design_gross_mass)

/-- aviary/subsystems/mass/gasp_based/avionics.py:53 -/
noncomputable abbrev avionics_wt_3 (design_gross_mass : ℝ) : ℝ :=
  if 7500 ≤ design_gross_mass then 163 else (avionics_wt_2 design_gross_mass)

/-- aviary/subsystems/mass/gasp_based/avionics.py:55 -/
noncomputable abbrev avionics_wt_4 (design_gross_mass : ℝ) : ℝ :=
  if 11000 ≤ design_gross_mass then 340 else (avionics_wt_3 design_gross_mass)

/-- aviary/subsystems/mass/gasp_based/avionics.py:38 -/
noncomputable abbrev avionics_wt_5 (crewpayload_design_num_passengers design_gross_mass : ℝ) : ℝ :=
  if crewpayload_design_num_passengers < 20 then (avionics_wt_4 design_gross_mass) else 27

/-- aviary/subsystems/mass/gasp_based/avionics.py:61 -/
noncomputable abbrev avionics_wt_6 (crewpayload_design_num_passengers design_gross_mass : ℝ) : ℝ :=
  if (50 < crewpayload_design_num_passengers ∧ crewpayload_design_num_passengers ≤ 100) then 600
    else (avionics_wt_5 crewpayload_design_num_passengers design_gross_mass)

/-- aviary/subsystems/mass/gasp_based/avionics.py:59 -/
noncomputable abbrev avionics_wt_7 (crewpayload_design_num_passengers design_gross_mass : ℝ) : ℝ :=
  if (30 ≤ crewpayload_design_num_passengers ∧ crewpayload_design_num_passengers ≤ 50) then 500
    else (avionics_wt_6 crewpayload_design_num_passengers design_gross_mass)

/-- aviary/subsystems/mass/gasp_based/avionics.py:57 -/
noncomputable abbrev avionics_wt_8 (crewpayload_design_num_passengers design_gross_mass : ℝ) : ℝ :=
  if (20 ≤ crewpayload_design_num_passengers ∧ crewpayload_design_num_passengers < 30) then 400
    else (avionics_wt_7 crewpayload_design_num_passengers design_gross_mass)

/-- aviary/subsystems/mass/gasp_based/avionics.py:64 -/
noncomputable abbrev avionics_wt_9 (crewpayload_design_num_passengers : ℝ) : ℝ :=
  ((14 / 5) * crewpayload_design_num_passengers) + 1010

/-- aviary/subsystems/mass/gasp_based/avionics.py:63 -/
noncomputable abbrev avionics_wt_10 (crewpayload_design_num_passengers design_gross_mass : ℝ) : ℝ :=
  if 100 < crewpayload_design_num_passengers then (avionics_wt_9
    crewpayload_design_num_passengers) else (avionics_wt_8 crewpayload_design_num_passengers
    design_gross_mass)

/-- Output `avionics_mass` of `AvionicsMass.compute`, aviary/subsystems/mass/gasp_based/avionics.py:66 -/
noncomputable def out_avionics_mass (crewpayload_design_num_passengers design_gross_mass : ℝ) : ℝ :=
  avionics_wt_10 crewpayload_design_num_passengers design_gross_mass

/-- Partial of `avionics_mass` with respect to `design_gross_mass` as set by `AvionicsMass`, aviary/subsystems/mass/gasp_based/avionics.py:82 -/
noncomputable def J_avionics_mass__design_gross_mass : ℝ := 0

theorem d_avionics_mass__design_gross_mass (crewpayload_design_num_passengers design_gross_mass :
    ℝ) (h0 : design_gross_mass ≠ 11000) (h1 : design_gross_mass ≠ 7500) (h2 : design_gross_mass ≠
    5500) (h3 : design_gross_mass ≠ 3000) :
    HasDerivAt (fun t => out_avionics_mass crewpayload_design_num_passengers t) (J_avionics_mass__design_gross_mass) design_gross_mass := by
  simp only [out_avionics_mass, J_avionics_mass__design_gross_mass, avionics_wt_10, avionics_wt_8, avionics_wt_7, avionics_wt_6, avionics_wt_5, avionics_wt_4, avionics_wt_3, avionics_wt_2, avionics_wt, avionics_wt_9]
  try split_ifs
  all_goals (apply hasDerivAt_of_eq; on_goal 1 => (repeat' comp_step))
  all_goals try comp_side
  all_goals try split_ifs
  all_goals try (exfalso; linarith)
  all_goals try simp only [mul_zero, zero_mul, add_zero, zero_add, sub_zero, zero_sub, mul_one, one_mul]
  all_goals try push_cast
  all_goals comp_eq

/-- Every partial derivative set by `AvionicsMass` is the derivative of its output. -/
theorem partials (crewpayload_design_num_passengers design_gross_mass : ℝ) (h0 : design_gross_mass
    ≠ 11000) (h1 : design_gross_mass ≠ 7500) (h2 : design_gross_mass ≠ 5500) (h3 :
    design_gross_mass ≠ 3000) :
    HasDerivAt (fun t => out_avionics_mass crewpayload_design_num_passengers t)
      (J_avionics_mass__design_gross_mass) design_gross_mass :=
  d_avionics_mass__design_gross_mass _ _ h0 h1 h2 h3

example : ∃ crewpayload_design_num_passengers design_gross_mass : ℝ,
      design_gross_mass ≠ 11000 ∧
      design_gross_mass ≠ 7500 ∧
      design_gross_mass ≠ 5500 ∧
      design_gross_mass ≠ 3000 :=
  ⟨0, 0, by comp_example, by comp_example, by comp_example, by comp_example⟩

end Verif.Comp.MassGaspBasedAvionics.AvionicsMass_no_smooth

