import Verif.Lemmas.CompDeriv

/-! # Partial derivatives of the components of `aviary/subsystems/mass/flops_based/apu.py`

One node of a vector component is modelled over the real numbers.  Each option that selects a
branch is fixed, one namespace per choice.  `out_x` is the output `x`, `J_x__y` the entry that
`compute_partials` (or `declare_partials` with `val`) assigns, `d_x__y` the proof that the entry is
the derivative.  Inputs an output does not take as argument have no influence on it. -/

set_option linter.all false

namespace Verif.Comp.MassFlopsBasedApu.TransportAPUMass
open Real

/-- Output `apu_mass` of `TransportAPUMass.compute`, aviary/subsystems/mass/flops_based/apu.py:31 -/
noncomputable def out_apu_mass (crewpayload_design_num_passengers apu_mass_scaler fuselage_planform_area : ℝ) : ℝ :=
  ((54 * (fuselage_planform_area ^ ((3 / 10) : ℝ))) + ((27 / 5) *
    (crewpayload_design_num_passengers ^ ((9 / 10) : ℝ)))) * apu_mass_scaler

/-- Partial of `apu_mass` with respect to `apu_mass_scaler` as set by `TransportAPUMass`, aviary/subsystems/mass/flops_based/apu.py:40 -/
noncomputable def J_apu_mass__apu_mass_scaler (crewpayload_design_num_passengers fuselage_planform_area : ℝ) : ℝ :=
  (54 * (fuselage_planform_area ^ ((3 / 10) : ℝ))) + ((27 / 5) *
    (crewpayload_design_num_passengers ^ ((9 / 10) : ℝ)))

/-- Partial of `apu_mass` with respect to `fuselage_planform_area` as set by `TransportAPUMass`, aviary/subsystems/mass/flops_based/apu.py:43 -/
noncomputable def J_apu_mass__fuselage_planform_area (apu_mass_scaler fuselage_planform_area : ℝ) : ℝ :=
  ((81 / 5) * (fuselage_planform_area ^ ((-(7 / 10)) : ℝ))) * apu_mass_scaler

theorem d_apu_mass__apu_mass_scaler (crewpayload_design_num_passengers apu_mass_scaler
    fuselage_planform_area : ℝ) (h0 : 0 < fuselage_planform_area) (h1 : 0 <
    crewpayload_design_num_passengers) :
    HasDerivAt (fun t => out_apu_mass crewpayload_design_num_passengers t fuselage_planform_area) (J_apu_mass__apu_mass_scaler crewpayload_design_num_passengers fuselage_planform_area) apu_mass_scaler := by
  simp only [out_apu_mass, J_apu_mass__apu_mass_scaler]
  (apply hasDerivAt_of_eq; on_goal 1 => (repeat' comp_step))
  all_goals try comp_side
  all_goals try simp only [mul_zero, zero_mul, add_zero, zero_add, sub_zero, zero_sub, mul_one, one_mul]
  all_goals try push_cast
  all_goals comp_eq

theorem d_apu_mass__fuselage_planform_area (crewpayload_design_num_passengers apu_mass_scaler
    fuselage_planform_area : ℝ) (h0 : 0 < fuselage_planform_area) (h1 : 0 <
    crewpayload_design_num_passengers) :
    HasDerivAt (fun t => out_apu_mass crewpayload_design_num_passengers apu_mass_scaler t) (J_apu_mass__fuselage_planform_area apu_mass_scaler fuselage_planform_area) fuselage_planform_area := by
  have e0 : ∀ x : ℝ, 0 < x → x ^ ((-(7 / 10)) : ℝ) = x ^ ((3 / 10) : ℝ) / x ^ 1 := fun x hx => rpow_down hx 1 (by norm_num)
  simp only [out_apu_mass, J_apu_mass__fuselage_planform_area]
  (apply hasDerivAt_of_eq; on_goal 1 => (repeat' comp_step))
  all_goals try comp_side
  all_goals try simp (disch := first | assumption | positivity) only [e0]
  all_goals try simp only [mul_zero, zero_mul, add_zero, zero_add, sub_zero, zero_sub, mul_one, one_mul]
  all_goals try push_cast
  all_goals comp_eq

/-- Every partial derivative set by `TransportAPUMass` is the derivative of its output. -/
theorem partials (crewpayload_design_num_passengers apu_mass_scaler fuselage_planform_area : ℝ)
    (h0 : 0 < fuselage_planform_area) (h1 : 0 < crewpayload_design_num_passengers) :
    HasDerivAt (fun t => out_apu_mass crewpayload_design_num_passengers t fuselage_planform_area)
      (J_apu_mass__apu_mass_scaler crewpayload_design_num_passengers fuselage_planform_area)
      apu_mass_scaler ∧
    HasDerivAt (fun t => out_apu_mass crewpayload_design_num_passengers apu_mass_scaler t)
      (J_apu_mass__fuselage_planform_area apu_mass_scaler fuselage_planform_area)
      fuselage_planform_area :=
  ⟨d_apu_mass__apu_mass_scaler _ _ _ h0 h1, d_apu_mass__fuselage_planform_area _ _ _ h0 h1⟩

example : ∃ crewpayload_design_num_passengers apu_mass_scaler fuselage_planform_area : ℝ,
      0 < fuselage_planform_area ∧
      0 < crewpayload_design_num_passengers :=
  ⟨1, 0, 1, by comp_example, by comp_example⟩

end Verif.Comp.MassFlopsBasedApu.TransportAPUMass

