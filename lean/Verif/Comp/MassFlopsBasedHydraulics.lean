import Verif.Lemmas.CompDeriv

/-! # Partial derivatives of the components of `aviary/subsystems/mass/flops_based/hydraulics.py`

One node of a vector component is modelled over the real numbers.  Each option that selects a
branch is fixed, one namespace per choice.  `out_x` is the output `x`, `J_x__y` the entry that
`compute_partials` (or `declare_partials` with `val`) assigns, `d_x__y` the proof that the entry is
the derivative.  Inputs an output does not take as argument have no influence on it.

* `TransportHydraulicsGroupMass`: not proved: `hydraulics_mass` by `hydraulics_system_pressure` -/

set_option linter.all false

namespace Verif.Comp.MassFlopsBasedHydraulics.AltHydraulicsGroupMass
open Real

/-- aviary/subsystems/mass/flops_based/hydraulics.py:157 -/
noncomputable def thick_chord_term (horizontaltail_thickness_to_chord : ℝ) : ℝ :=
  2 + ((387 / 1000) * horizontaltail_thickness_to_chord)

/-- Output `hydraulics_mass` of `AltHydraulicsGroupMass.compute`, aviary/subsystems/mass/flops_based/hydraulics.py:146 -/
noncomputable def out_hydraulics_mass (wing_area horizontaltail_wetted_area horizontaltail_thickness_to_chord verticaltail_area hydraulics_mass_scaler : ℝ) : ℝ :=
  ((6053 / 10000) * (wing_area + ((36 / 25) * ((horizontaltail_wetted_area / (2 + ((387 / 1000)
    * horizontaltail_thickness_to_chord))) + verticaltail_area)))) * hydraulics_mass_scaler

/-- Partial of `hydraulics_mass` with respect to `wing_area` as set by `AltHydraulicsGroupMass`, aviary/subsystems/mass/flops_based/hydraulics.py:161 -/
noncomputable def J_hydraulics_mass__wing_area (hydraulics_mass_scaler : ℝ) : ℝ :=
  (6053 / 10000) * hydraulics_mass_scaler

/-- Partial of `hydraulics_mass` with respect to `horizontaltail_wetted_area` as set by `AltHydraulicsGroupMass`, aviary/subsystems/mass/flops_based/hydraulics.py:163 -/
noncomputable def J_hydraulics_mass__horizontaltail_wetted_area (horizontaltail_thickness_to_chord hydraulics_mass_scaler : ℝ) : ℝ :=
  ((54477 / 62500) / (thick_chord_term horizontaltail_thickness_to_chord)) *
    hydraulics_mass_scaler

/-- Partial of `hydraulics_mass` with respect to `horizontaltail_thickness_to_chord` as set by `AltHydraulicsGroupMass`, aviary/subsystems/mass/flops_based/hydraulics.py:167 -/
noncomputable def J_hydraulics_mass__horizontaltail_thickness_to_chord (horizontaltail_wetted_area horizontaltail_thickness_to_chord hydraulics_mass_scaler : ℝ) : ℝ :=
  (((-(21082599 / 62500000)) * horizontaltail_wetted_area) / ((thick_chord_term
    horizontaltail_thickness_to_chord) * (thick_chord_term horizontaltail_thickness_to_chord)))
    * hydraulics_mass_scaler

/-- Partial of `hydraulics_mass` with respect to `verticaltail_area` as set by `AltHydraulicsGroupMass`, aviary/subsystems/mass/flops_based/hydraulics.py:175 -/
noncomputable def J_hydraulics_mass__verticaltail_area (hydraulics_mass_scaler : ℝ) : ℝ :=
  (54477 / 62500) * hydraulics_mass_scaler

/-- Partial of `hydraulics_mass` with respect to `hydraulics_mass_scaler` as set by `AltHydraulicsGroupMass`, aviary/subsystems/mass/flops_based/hydraulics.py:179 -/
noncomputable def J_hydraulics_mass__hydraulics_mass_scaler (wing_area horizontaltail_wetted_area horizontaltail_thickness_to_chord verticaltail_area : ℝ) : ℝ :=
  (6053 / 10000) * (wing_area + ((36 / 25) * ((horizontaltail_wetted_area / (2 + ((387 / 1000) *
    horizontaltail_thickness_to_chord))) + verticaltail_area)))

theorem d_hydraulics_mass__wing_area (wing_area horizontaltail_wetted_area
    horizontaltail_thickness_to_chord verticaltail_area hydraulics_mass_scaler : ℝ) (h0 : 0 <
    horizontaltail_thickness_to_chord) :
    HasDerivAt (fun t => out_hydraulics_mass t horizontaltail_wetted_area horizontaltail_thickness_to_chord verticaltail_area hydraulics_mass_scaler) (J_hydraulics_mass__wing_area hydraulics_mass_scaler) wing_area := by
  simp only [out_hydraulics_mass, J_hydraulics_mass__wing_area]
  (apply hasDerivAt_of_eq; on_goal 1 => (repeat' comp_step))
  all_goals try comp_side
  all_goals try simp only [mul_zero, zero_mul, add_zero, zero_add, sub_zero, zero_sub, mul_one, one_mul]
  all_goals try push_cast
  all_goals comp_eq

theorem d_hydraulics_mass__horizontaltail_wetted_area (wing_area horizontaltail_wetted_area
    horizontaltail_thickness_to_chord verticaltail_area hydraulics_mass_scaler : ℝ) (h0 : 0 <
    horizontaltail_thickness_to_chord) :
    HasDerivAt (fun t => out_hydraulics_mass wing_area t horizontaltail_thickness_to_chord verticaltail_area hydraulics_mass_scaler) (J_hydraulics_mass__horizontaltail_wetted_area horizontaltail_thickness_to_chord hydraulics_mass_scaler) horizontaltail_wetted_area := by
  simp only [out_hydraulics_mass, J_hydraulics_mass__horizontaltail_wetted_area, thick_chord_term]
  (apply hasDerivAt_of_eq; on_goal 1 => (repeat' comp_step))
  all_goals try comp_side
  all_goals try simp only [mul_zero, zero_mul, add_zero, zero_add, sub_zero, zero_sub, mul_one, one_mul]
  all_goals try push_cast
  all_goals comp_eq

theorem d_hydraulics_mass__horizontaltail_thickness_to_chord (wing_area horizontaltail_wetted_area
    horizontaltail_thickness_to_chord verticaltail_area hydraulics_mass_scaler : ℝ) (h0 : 0 <
    horizontaltail_thickness_to_chord) :
    HasDerivAt (fun t => out_hydraulics_mass wing_area horizontaltail_wetted_area t verticaltail_area hydraulics_mass_scaler) (J_hydraulics_mass__horizontaltail_thickness_to_chord horizontaltail_wetted_area horizontaltail_thickness_to_chord hydraulics_mass_scaler) horizontaltail_thickness_to_chord := by
  simp only [out_hydraulics_mass, J_hydraulics_mass__horizontaltail_thickness_to_chord, thick_chord_term]
  (apply hasDerivAt_of_eq; on_goal 1 => (repeat' comp_step))
  all_goals try comp_side
  all_goals try simp only [mul_zero, zero_mul, add_zero, zero_add, sub_zero, zero_sub, mul_one, one_mul]
  all_goals try push_cast
  all_goals comp_eq

theorem d_hydraulics_mass__verticaltail_area (wing_area horizontaltail_wetted_area
    horizontaltail_thickness_to_chord verticaltail_area hydraulics_mass_scaler : ℝ) (h0 : 0 <
    horizontaltail_thickness_to_chord) :
    HasDerivAt (fun t => out_hydraulics_mass wing_area horizontaltail_wetted_area horizontaltail_thickness_to_chord t hydraulics_mass_scaler) (J_hydraulics_mass__verticaltail_area hydraulics_mass_scaler) verticaltail_area := by
  simp only [out_hydraulics_mass, J_hydraulics_mass__verticaltail_area]
  (apply hasDerivAt_of_eq; on_goal 1 => (repeat' comp_step))
  all_goals try comp_side
  all_goals try simp only [mul_zero, zero_mul, add_zero, zero_add, sub_zero, zero_sub, mul_one, one_mul]
  all_goals try push_cast
  all_goals comp_eq

theorem d_hydraulics_mass__hydraulics_mass_scaler (wing_area horizontaltail_wetted_area
    horizontaltail_thickness_to_chord verticaltail_area hydraulics_mass_scaler : ℝ) (h0 : 0 <
    horizontaltail_thickness_to_chord) :
    HasDerivAt (fun t => out_hydraulics_mass wing_area horizontaltail_wetted_area horizontaltail_thickness_to_chord verticaltail_area t) (J_hydraulics_mass__hydraulics_mass_scaler wing_area horizontaltail_wetted_area horizontaltail_thickness_to_chord verticaltail_area) hydraulics_mass_scaler := by
  simp only [out_hydraulics_mass, J_hydraulics_mass__hydraulics_mass_scaler]
  (apply hasDerivAt_of_eq; on_goal 1 => (repeat' comp_step))
  all_goals try comp_side
  all_goals try simp only [mul_zero, zero_mul, add_zero, zero_add, sub_zero, zero_sub, mul_one, one_mul]
  all_goals try push_cast
  all_goals comp_eq

/-- Every partial derivative set by `AltHydraulicsGroupMass` is the derivative of its output. -/
theorem partials (wing_area horizontaltail_wetted_area horizontaltail_thickness_to_chord
    verticaltail_area hydraulics_mass_scaler : ℝ) (h0 : 0 < horizontaltail_thickness_to_chord) :
    HasDerivAt (fun t => out_hydraulics_mass t horizontaltail_wetted_area
      horizontaltail_thickness_to_chord verticaltail_area hydraulics_mass_scaler)
      (J_hydraulics_mass__wing_area hydraulics_mass_scaler) wing_area ∧
    HasDerivAt (fun t => out_hydraulics_mass wing_area t horizontaltail_thickness_to_chord
      verticaltail_area hydraulics_mass_scaler) (J_hydraulics_mass__horizontaltail_wetted_area
      horizontaltail_thickness_to_chord hydraulics_mass_scaler) horizontaltail_wetted_area ∧
    HasDerivAt (fun t => out_hydraulics_mass wing_area horizontaltail_wetted_area t verticaltail_area
      hydraulics_mass_scaler) (J_hydraulics_mass__horizontaltail_thickness_to_chord
      horizontaltail_wetted_area horizontaltail_thickness_to_chord hydraulics_mass_scaler)
      horizontaltail_thickness_to_chord ∧
    HasDerivAt (fun t => out_hydraulics_mass wing_area horizontaltail_wetted_area
      horizontaltail_thickness_to_chord t hydraulics_mass_scaler)
      (J_hydraulics_mass__verticaltail_area hydraulics_mass_scaler) verticaltail_area ∧
    HasDerivAt (fun t => out_hydraulics_mass wing_area horizontaltail_wetted_area
      horizontaltail_thickness_to_chord verticaltail_area t)
      (J_hydraulics_mass__hydraulics_mass_scaler wing_area horizontaltail_wetted_area
      horizontaltail_thickness_to_chord verticaltail_area) hydraulics_mass_scaler :=
  ⟨d_hydraulics_mass__wing_area _ _ _ _ _ h0, d_hydraulics_mass__horizontaltail_wetted_area _ _ _
    _ _ h0, d_hydraulics_mass__horizontaltail_thickness_to_chord _ _ _ _ _ h0,
    d_hydraulics_mass__verticaltail_area _ _ _ _ _ h0, d_hydraulics_mass__hydraulics_mass_scaler _
    _ _ _ _ h0⟩

example : ∃ wing_area horizontaltail_wetted_area horizontaltail_thickness_to_chord
      verticaltail_area hydraulics_mass_scaler : ℝ,
      0 < horizontaltail_thickness_to_chord :=
  ⟨0, 0, 1, 0, 0, by comp_example⟩

end Verif.Comp.MassFlopsBasedHydraulics.AltHydraulicsGroupMass

namespace Verif.Comp.MassFlopsBasedHydraulics.TransportHydraulicsGroupMass
open Real

/-- aviary/subsystems/mass/flops_based/hydraulics.py:77 -/
noncomputable abbrev term1 (fuselage_planform_area wing_area : ℝ) : ℝ :=
  fuselage_planform_area + ((27 / 100) * wing_area)

/-- aviary/subsystems/mass/flops_based/hydraulics.py:78 -/
noncomputable abbrev term2 (distributed_engine_count_factor_of_propulsion_total_num_wing_engines distributed_engine_count_factor_of_propulsion_total_num_fuselage_engines : ℝ) : ℝ :=
  (1 + ((3 / 100) * distributed_engine_count_factor_of_propulsion_total_num_wing_engines)) + ((1
    / 20) * distributed_engine_count_factor_of_propulsion_total_num_fuselage_engines)

/-- aviary/subsystems/mass/flops_based/hydraulics.py:79 -/
noncomputable abbrev term3 (hydraulics_system_pressure : ℝ) : ℝ :=
  (3000 / hydraulics_system_pressure) ^ ((7 / 20) : ℝ)

/-- aviary/subsystems/mass/flops_based/hydraulics.py:80 -/
noncomputable abbrev term4 (wing_var_sweep_mass_penalty : ℝ) : ℝ :=
  1 + ((1 / 25) * wing_var_sweep_mass_penalty)

/-- aviary/subsystems/mass/flops_based/hydraulics.py:81 -/
noncomputable abbrev term5 (constraints_max_mach : ℝ) : ℝ := constraints_max_mach ^ ((33 / 100) : ℝ)

/-- Output `hydraulics_mass` of `TransportHydraulicsGroupMass.compute`, aviary/subsystems/mass/flops_based/hydraulics.py:53 -/
noncomputable def out_hydraulics_mass (distributed_engine_count_factor_of_propulsion_total_num_wing_engines distributed_engine_count_factor_of_propulsion_total_num_fuselage_engines constraints_max_mach fuselage_planform_area hydraulics_system_pressure hydraulics_mass_scaler wing_area wing_var_sweep_mass_penalty : ℝ) : ℝ :=
  if hydraulics_system_pressure ≤ 0 then 0 else (((((((57 / 100) * (fuselage_planform_area +
    ((27 / 100) * wing_area))) * ((1 + ((3 / 100) *
    distributed_engine_count_factor_of_propulsion_total_num_wing_engines)) + ((1 / 20) *
    distributed_engine_count_factor_of_propulsion_total_num_fuselage_engines))) * ((3000 /
    hydraulics_system_pressure) ^ ((7 / 20) : ℝ))) * (1 + ((1 / 25) *
    wing_var_sweep_mass_penalty))) * (constraints_max_mach ^ ((33 / 100) : ℝ))) *
    hydraulics_mass_scaler)

/-- Partial of `hydraulics_mass` with respect to `fuselage_planform_area` as set by `TransportHydraulicsGroupMass`, aviary/subsystems/mass/flops_based/hydraulics.py:92 -/
noncomputable def J_hydraulics_mass__fuselage_planform_area (distributed_engine_count_factor_of_propulsion_total_num_wing_engines distributed_engine_count_factor_of_propulsion_total_num_fuselage_engines constraints_max_mach hydraulics_system_pressure hydraulics_mass_scaler wing_var_sweep_mass_penalty : ℝ) : ℝ :=
  if hydraulics_system_pressure ≤ 0 then 0 else ((((((57 / 100) * (term2
    distributed_engine_count_factor_of_propulsion_total_num_wing_engines
    distributed_engine_count_factor_of_propulsion_total_num_fuselage_engines)) * (term3
    hydraulics_system_pressure)) * (term4 wing_var_sweep_mass_penalty)) * (term5
    constraints_max_mach)) * hydraulics_mass_scaler)

/-- Partial of `hydraulics_mass` with respect to `wing_area` as set by `TransportHydraulicsGroupMass`, aviary/subsystems/mass/flops_based/hydraulics.py:96 -/
noncomputable def J_hydraulics_mass__wing_area (distributed_engine_count_factor_of_propulsion_total_num_wing_engines distributed_engine_count_factor_of_propulsion_total_num_fuselage_engines constraints_max_mach hydraulics_system_pressure hydraulics_mass_scaler wing_var_sweep_mass_penalty : ℝ) : ℝ :=
  if hydraulics_system_pressure ≤ 0 then 0 else ((((((1539 / 10000) * (term2
    distributed_engine_count_factor_of_propulsion_total_num_wing_engines
    distributed_engine_count_factor_of_propulsion_total_num_fuselage_engines)) * (term3
    hydraulics_system_pressure)) * (term4 wing_var_sweep_mass_penalty)) * (term5
    constraints_max_mach)) * hydraulics_mass_scaler)

/-- Partial of `hydraulics_mass` with respect to `hydraulics_system_pressure` as set by `TransportHydraulicsGroupMass`, aviary/subsystems/mass/flops_based/hydraulics.py:100 -/
noncomputable def J_hydraulics_mass__hydraulics_system_pressure (distributed_engine_count_factor_of_propulsion_total_num_wing_engines distributed_engine_count_factor_of_propulsion_total_num_fuselage_engines constraints_max_mach fuselage_planform_area hydraulics_system_pressure hydraulics_mass_scaler wing_area wing_var_sweep_mass_penalty : ℝ) : ℝ :=
  if hydraulics_system_pressure ≤ 0 then 0 else (((((((-(3288026727706387 / 1000000000000000)) *
    (term1 fuselage_planform_area wing_area)) * (term2
    distributed_engine_count_factor_of_propulsion_total_num_wing_engines
    distributed_engine_count_factor_of_propulsion_total_num_fuselage_engines)) *
    (hydraulics_system_pressure ^ ((-(27 / 20)) : ℝ))) * (term4 wing_var_sweep_mass_penalty)) *
    (term5 constraints_max_mach)) * hydraulics_mass_scaler)

/-- Partial of `hydraulics_mass` with respect to `wing_var_sweep_mass_penalty` as set by `TransportHydraulicsGroupMass`, aviary/subsystems/mass/flops_based/hydraulics.py:111 -/
noncomputable def J_hydraulics_mass__wing_var_sweep_mass_penalty (distributed_engine_count_factor_of_propulsion_total_num_wing_engines distributed_engine_count_factor_of_propulsion_total_num_fuselage_engines constraints_max_mach fuselage_planform_area hydraulics_system_pressure hydraulics_mass_scaler wing_area : ℝ) : ℝ :=
  if hydraulics_system_pressure ≤ 0 then 0 else ((((((57 / 2500) * (term1 fuselage_planform_area
    wing_area)) * (term2 distributed_engine_count_factor_of_propulsion_total_num_wing_engines
    distributed_engine_count_factor_of_propulsion_total_num_fuselage_engines)) * (term3
    hydraulics_system_pressure)) * (term5 constraints_max_mach)) * hydraulics_mass_scaler)

/-- Partial of `hydraulics_mass` with respect to `hydraulics_mass_scaler` as set by `TransportHydraulicsGroupMass`, aviary/subsystems/mass/flops_based/hydraulics.py:115 -/
noncomputable def J_hydraulics_mass__hydraulics_mass_scaler (distributed_engine_count_factor_of_propulsion_total_num_wing_engines distributed_engine_count_factor_of_propulsion_total_num_fuselage_engines constraints_max_mach fuselage_planform_area hydraulics_system_pressure wing_area wing_var_sweep_mass_penalty : ℝ) : ℝ :=
  if hydraulics_system_pressure ≤ 0 then 0 else ((((((57 / 100) * (term1 fuselage_planform_area
    wing_area)) * (term2 distributed_engine_count_factor_of_propulsion_total_num_wing_engines
    distributed_engine_count_factor_of_propulsion_total_num_fuselage_engines)) * (term3
    hydraulics_system_pressure)) * (term4 wing_var_sweep_mass_penalty)) * (term5
    constraints_max_mach))

theorem d_hydraulics_mass__fuselage_planform_area
    (distributed_engine_count_factor_of_propulsion_total_num_wing_engines
    distributed_engine_count_factor_of_propulsion_total_num_fuselage_engines constraints_max_mach
    fuselage_planform_area hydraulics_system_pressure hydraulics_mass_scaler wing_area
    wing_var_sweep_mass_penalty : ℝ) (h0 : 0 < hydraulics_system_pressure) (h1 : 0 <
    constraints_max_mach) :
    HasDerivAt (fun t => out_hydraulics_mass distributed_engine_count_factor_of_propulsion_total_num_wing_engines distributed_engine_count_factor_of_propulsion_total_num_fuselage_engines constraints_max_mach t hydraulics_system_pressure hydraulics_mass_scaler wing_area wing_var_sweep_mass_penalty) (J_hydraulics_mass__fuselage_planform_area distributed_engine_count_factor_of_propulsion_total_num_wing_engines distributed_engine_count_factor_of_propulsion_total_num_fuselage_engines constraints_max_mach hydraulics_system_pressure hydraulics_mass_scaler wing_var_sweep_mass_penalty) fuselage_planform_area := by
  simp only [out_hydraulics_mass, J_hydraulics_mass__fuselage_planform_area, term5, term4, term3, term2]
  try split_ifs
  all_goals (apply hasDerivAt_of_eq; on_goal 1 => (repeat' comp_step))
  all_goals try comp_side
  all_goals try split_ifs
  all_goals try (exfalso; linarith)
  all_goals try simp only [mul_zero, zero_mul, add_zero, zero_add, sub_zero, zero_sub, mul_one, one_mul]
  all_goals try push_cast
  all_goals comp_eq

theorem d_hydraulics_mass__hydraulics_mass_scaler
    (distributed_engine_count_factor_of_propulsion_total_num_wing_engines
    distributed_engine_count_factor_of_propulsion_total_num_fuselage_engines constraints_max_mach
    fuselage_planform_area hydraulics_system_pressure hydraulics_mass_scaler wing_area
    wing_var_sweep_mass_penalty : ℝ) (h0 : 0 < hydraulics_system_pressure) (h1 : 0 <
    constraints_max_mach) :
    HasDerivAt (fun t => out_hydraulics_mass distributed_engine_count_factor_of_propulsion_total_num_wing_engines distributed_engine_count_factor_of_propulsion_total_num_fuselage_engines constraints_max_mach fuselage_planform_area hydraulics_system_pressure t wing_area wing_var_sweep_mass_penalty) (J_hydraulics_mass__hydraulics_mass_scaler distributed_engine_count_factor_of_propulsion_total_num_wing_engines distributed_engine_count_factor_of_propulsion_total_num_fuselage_engines constraints_max_mach fuselage_planform_area hydraulics_system_pressure wing_area wing_var_sweep_mass_penalty) hydraulics_mass_scaler := by
  simp only [out_hydraulics_mass, J_hydraulics_mass__hydraulics_mass_scaler, term5, term4, term3, term2, term1]
  try split_ifs
  all_goals (apply hasDerivAt_of_eq; on_goal 1 => (repeat' comp_step))
  all_goals try comp_side
  all_goals try split_ifs
  all_goals try (exfalso; linarith)
  all_goals try simp only [mul_zero, zero_mul, add_zero, zero_add, sub_zero, zero_sub, mul_one, one_mul]
  all_goals try push_cast
  all_goals comp_eq

theorem d_hydraulics_mass__wing_area
    (distributed_engine_count_factor_of_propulsion_total_num_wing_engines
    distributed_engine_count_factor_of_propulsion_total_num_fuselage_engines constraints_max_mach
    fuselage_planform_area hydraulics_system_pressure hydraulics_mass_scaler wing_area
    wing_var_sweep_mass_penalty : ℝ) (h0 : 0 < hydraulics_system_pressure) (h1 : 0 <
    constraints_max_mach) :
    HasDerivAt (fun t => out_hydraulics_mass distributed_engine_count_factor_of_propulsion_total_num_wing_engines distributed_engine_count_factor_of_propulsion_total_num_fuselage_engines constraints_max_mach fuselage_planform_area hydraulics_system_pressure hydraulics_mass_scaler t wing_var_sweep_mass_penalty) (J_hydraulics_mass__wing_area distributed_engine_count_factor_of_propulsion_total_num_wing_engines distributed_engine_count_factor_of_propulsion_total_num_fuselage_engines constraints_max_mach hydraulics_system_pressure hydraulics_mass_scaler wing_var_sweep_mass_penalty) wing_area := by
  simp only [out_hydraulics_mass, J_hydraulics_mass__wing_area, term5, term4, term3, term2]
  try split_ifs
  all_goals (apply hasDerivAt_of_eq; on_goal 1 => (repeat' comp_step))
  all_goals try comp_side
  all_goals try split_ifs
  all_goals try (exfalso; linarith)
  all_goals try simp only [mul_zero, zero_mul, add_zero, zero_add, sub_zero, zero_sub, mul_one, one_mul]
  all_goals try push_cast
  all_goals comp_eq

theorem d_hydraulics_mass__wing_var_sweep_mass_penalty
    (distributed_engine_count_factor_of_propulsion_total_num_wing_engines
    distributed_engine_count_factor_of_propulsion_total_num_fuselage_engines constraints_max_mach
    fuselage_planform_area hydraulics_system_pressure hydraulics_mass_scaler wing_area
    wing_var_sweep_mass_penalty : ℝ) (h0 : 0 < hydraulics_system_pressure) (h1 : 0 <
    constraints_max_mach) :
    HasDerivAt (fun t => out_hydraulics_mass distributed_engine_count_factor_of_propulsion_total_num_wing_engines distributed_engine_count_factor_of_propulsion_total_num_fuselage_engines constraints_max_mach fuselage_planform_area hydraulics_system_pressure hydraulics_mass_scaler wing_area t) (J_hydraulics_mass__wing_var_sweep_mass_penalty distributed_engine_count_factor_of_propulsion_total_num_wing_engines distributed_engine_count_factor_of_propulsion_total_num_fuselage_engines constraints_max_mach fuselage_planform_area hydraulics_system_pressure hydraulics_mass_scaler wing_area) wing_var_sweep_mass_penalty := by
  simp only [out_hydraulics_mass, J_hydraulics_mass__wing_var_sweep_mass_penalty, term5, term3, term2, term1]
  try split_ifs
  all_goals (apply hasDerivAt_of_eq; on_goal 1 => (repeat' comp_step))
  all_goals try comp_side
  all_goals try split_ifs
  all_goals try (exfalso; linarith)
  all_goals try simp only [mul_zero, zero_mul, add_zero, zero_add, sub_zero, zero_sub, mul_one, one_mul]
  all_goals try push_cast
  all_goals comp_eq

/-- Partial derivatives of `TransportHydraulicsGroupMass` that are proved correct (the rest is listed in the header). -/
theorem partials_partial (distributed_engine_count_factor_of_propulsion_total_num_wing_engines
    distributed_engine_count_factor_of_propulsion_total_num_fuselage_engines constraints_max_mach
    fuselage_planform_area hydraulics_system_pressure hydraulics_mass_scaler wing_area
    wing_var_sweep_mass_penalty : ℝ) (h0 : 0 < hydraulics_system_pressure) (h1 : 0 <
    constraints_max_mach) :
    HasDerivAt (fun t => out_hydraulics_mass
      distributed_engine_count_factor_of_propulsion_total_num_wing_engines
      distributed_engine_count_factor_of_propulsion_total_num_fuselage_engines
      constraints_max_mach t hydraulics_system_pressure hydraulics_mass_scaler wing_area
      wing_var_sweep_mass_penalty) (J_hydraulics_mass__fuselage_planform_area
      distributed_engine_count_factor_of_propulsion_total_num_wing_engines
      distributed_engine_count_factor_of_propulsion_total_num_fuselage_engines
      constraints_max_mach hydraulics_system_pressure hydraulics_mass_scaler
      wing_var_sweep_mass_penalty) fuselage_planform_area ∧
    HasDerivAt (fun t => out_hydraulics_mass
      distributed_engine_count_factor_of_propulsion_total_num_wing_engines
      distributed_engine_count_factor_of_propulsion_total_num_fuselage_engines
      constraints_max_mach fuselage_planform_area hydraulics_system_pressure t wing_area
      wing_var_sweep_mass_penalty) (J_hydraulics_mass__hydraulics_mass_scaler
      distributed_engine_count_factor_of_propulsion_total_num_wing_engines
      distributed_engine_count_factor_of_propulsion_total_num_fuselage_engines
      constraints_max_mach fuselage_planform_area hydraulics_system_pressure wing_area
      wing_var_sweep_mass_penalty) hydraulics_mass_scaler ∧
    HasDerivAt (fun t => out_hydraulics_mass
      distributed_engine_count_factor_of_propulsion_total_num_wing_engines
      distributed_engine_count_factor_of_propulsion_total_num_fuselage_engines
      constraints_max_mach fuselage_planform_area hydraulics_system_pressure
      hydraulics_mass_scaler t wing_var_sweep_mass_penalty) (J_hydraulics_mass__wing_area
      distributed_engine_count_factor_of_propulsion_total_num_wing_engines
      distributed_engine_count_factor_of_propulsion_total_num_fuselage_engines
      constraints_max_mach hydraulics_system_pressure hydraulics_mass_scaler
      wing_var_sweep_mass_penalty) wing_area ∧
    HasDerivAt (fun t => out_hydraulics_mass
      distributed_engine_count_factor_of_propulsion_total_num_wing_engines
      distributed_engine_count_factor_of_propulsion_total_num_fuselage_engines
      constraints_max_mach fuselage_planform_area hydraulics_system_pressure
      hydraulics_mass_scaler wing_area t) (J_hydraulics_mass__wing_var_sweep_mass_penalty
      distributed_engine_count_factor_of_propulsion_total_num_wing_engines
      distributed_engine_count_factor_of_propulsion_total_num_fuselage_engines
      constraints_max_mach fuselage_planform_area hydraulics_system_pressure
      hydraulics_mass_scaler wing_area) wing_var_sweep_mass_penalty :=
  ⟨d_hydraulics_mass__fuselage_planform_area _ _ _ _ _ _ _ _ h0 h1,
    d_hydraulics_mass__hydraulics_mass_scaler _ _ _ _ _ _ _ _ h0 h1, d_hydraulics_mass__wing_area
    _ _ _ _ _ _ _ _ h0 h1, d_hydraulics_mass__wing_var_sweep_mass_penalty _ _ _ _ _ _ _ _ h0 h1⟩

example : ∃ distributed_engine_count_factor_of_propulsion_total_num_wing_engines
      distributed_engine_count_factor_of_propulsion_total_num_fuselage_engines
      constraints_max_mach fuselage_planform_area hydraulics_system_pressure
      hydraulics_mass_scaler wing_area wing_var_sweep_mass_penalty : ℝ,
      0 < hydraulics_system_pressure ∧
      0 < constraints_max_mach :=
  ⟨0, 0, 1, 0, 1, 0, 0, 0, by comp_example, by comp_example⟩

end Verif.Comp.MassFlopsBasedHydraulics.TransportHydraulicsGroupMass

