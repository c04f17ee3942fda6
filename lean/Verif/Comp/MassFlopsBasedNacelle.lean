import Verif.Lemmas.CompDeriv

/-! # Partial derivatives of the components of `aviary/subsystems/mass/flops_based/nacelle.py`

One node of a vector component is modelled over the real numbers.  Each option that selects a
branch is fixed, one namespace per choice.  `out_x` is the output `x`, `J_x__y` the entry that
`compute_partials` (or `declare_partials` with `val`) assigns, `d_x__y` the proof that the entry is
the derivative.  Inputs an output does not take as argument have no influence on it. -/

set_option linter.all false

namespace Verif.Comp.MassFlopsBasedNacelle.NacelleMass_blendedwingbody
open Real

/-- aviary/subsystems/mass/flops_based/nacelle.py:98 -/
noncomputable def thrust_exp (engine_scaled_sls_thrust : ℝ) : ℝ :=
  engine_scaled_sls_thrust ^ ((9 / 25) : ℝ)

/-- Output `nacelle_mass` of `NacelleMass.compute`, aviary/subsystems/mass/flops_based/nacelle.py:80 -/
noncomputable def out_nacelle_mass (engine_num_wing_engines nacelle_avg_diameter nacelle_avg_length nacelle_mass_scaler engine_scaled_sls_thrust : ℝ) : ℝ :=
  (((((1 / 4) * engine_num_wing_engines) * nacelle_avg_diameter) * nacelle_avg_length) *
    (engine_scaled_sls_thrust ^ ((9 / 25) : ℝ))) * nacelle_mass_scaler

/-- Partial of `nacelle_mass` with respect to `engine_scaled_sls_thrust` as set by `NacelleMass`, aviary/subsystems/mass/flops_based/nacelle.py:109 -/
noncomputable def J_nacelle_mass__engine_scaled_sls_thrust (engine_num_wing_engines nacelle_avg_diameter nacelle_avg_length nacelle_mass_scaler engine_scaled_sls_thrust : ℝ) : ℝ :=
  (((((9 / 100) * engine_num_wing_engines) * nacelle_avg_diameter) * nacelle_avg_length) *
    (engine_scaled_sls_thrust ^ ((-(16 / 25)) : ℝ))) * nacelle_mass_scaler

/-- Partial of `nacelle_mass` with respect to `nacelle_avg_diameter` as set by `NacelleMass`, aviary/subsystems/mass/flops_based/nacelle.py:100 -/
noncomputable def J_nacelle_mass__nacelle_avg_diameter (engine_num_wing_engines nacelle_avg_length nacelle_mass_scaler engine_scaled_sls_thrust : ℝ) : ℝ :=
  ((((1 / 4) * engine_num_wing_engines) * nacelle_avg_length) * (thrust_exp
    engine_scaled_sls_thrust)) * nacelle_mass_scaler

/-- Partial of `nacelle_mass` with respect to `nacelle_avg_length` as set by `NacelleMass`, aviary/subsystems/mass/flops_based/nacelle.py:103 -/
noncomputable def J_nacelle_mass__nacelle_avg_length (engine_num_wing_engines nacelle_avg_diameter nacelle_mass_scaler engine_scaled_sls_thrust : ℝ) : ℝ :=
  ((((1 / 4) * engine_num_wing_engines) * nacelle_avg_diameter) * (thrust_exp
    engine_scaled_sls_thrust)) * nacelle_mass_scaler

/-- Partial of `nacelle_mass` with respect to `nacelle_mass_scaler` as set by `NacelleMass`, aviary/subsystems/mass/flops_based/nacelle.py:106 -/
noncomputable def J_nacelle_mass__nacelle_mass_scaler (engine_num_wing_engines nacelle_avg_diameter nacelle_avg_length engine_scaled_sls_thrust : ℝ) : ℝ :=
  ((((1 / 4) * engine_num_wing_engines) * nacelle_avg_diameter) * nacelle_avg_length) *
    (thrust_exp engine_scaled_sls_thrust)

theorem d_nacelle_mass__nacelle_avg_diameter (engine_num_wing_engines nacelle_avg_diameter
    nacelle_avg_length nacelle_mass_scaler engine_scaled_sls_thrust : ℝ) (h0 : 0 <
    engine_scaled_sls_thrust) :
    HasDerivAt (fun t => out_nacelle_mass engine_num_wing_engines t nacelle_avg_length nacelle_mass_scaler engine_scaled_sls_thrust) (J_nacelle_mass__nacelle_avg_diameter engine_num_wing_engines nacelle_avg_length nacelle_mass_scaler engine_scaled_sls_thrust) nacelle_avg_diameter := by
  simp only [out_nacelle_mass, J_nacelle_mass__nacelle_avg_diameter, thrust_exp]
  (apply hasDerivAt_of_eq; on_goal 1 => (repeat' comp_step))
  all_goals try comp_side
  all_goals try simp only [mul_zero, zero_mul, add_zero, zero_add, sub_zero, zero_sub, mul_one, one_mul]
  all_goals try push_cast
  all_goals comp_eq

theorem d_nacelle_mass__nacelle_avg_length (engine_num_wing_engines nacelle_avg_diameter
    nacelle_avg_length nacelle_mass_scaler engine_scaled_sls_thrust : ℝ) (h0 : 0 <
    engine_scaled_sls_thrust) :
    HasDerivAt (fun t => out_nacelle_mass engine_num_wing_engines nacelle_avg_diameter t nacelle_mass_scaler engine_scaled_sls_thrust) (J_nacelle_mass__nacelle_avg_length engine_num_wing_engines nacelle_avg_diameter nacelle_mass_scaler engine_scaled_sls_thrust) nacelle_avg_length := by
  simp only [out_nacelle_mass, J_nacelle_mass__nacelle_avg_length, thrust_exp]
  (apply hasDerivAt_of_eq; on_goal 1 => (repeat' comp_step))
  all_goals try comp_side
  all_goals try simp only [mul_zero, zero_mul, add_zero, zero_add, sub_zero, zero_sub, mul_one, one_mul]
  all_goals try push_cast
  all_goals comp_eq

theorem d_nacelle_mass__nacelle_mass_scaler (engine_num_wing_engines nacelle_avg_diameter
    nacelle_avg_length nacelle_mass_scaler engine_scaled_sls_thrust : ℝ) (h0 : 0 <
    engine_scaled_sls_thrust) :
    HasDerivAt (fun t => out_nacelle_mass engine_num_wing_engines nacelle_avg_diameter nacelle_avg_length t engine_scaled_sls_thrust) (J_nacelle_mass__nacelle_mass_scaler engine_num_wing_engines nacelle_avg_diameter nacelle_avg_length engine_scaled_sls_thrust) nacelle_mass_scaler := by
  simp only [out_nacelle_mass, J_nacelle_mass__nacelle_mass_scaler, thrust_exp]
  (apply hasDerivAt_of_eq; on_goal 1 => (repeat' comp_step))
  all_goals try comp_side
  all_goals try simp only [mul_zero, zero_mul, add_zero, zero_add, sub_zero, zero_sub, mul_one, one_mul]
  all_goals try push_cast
  all_goals comp_eq

theorem d_nacelle_mass__engine_scaled_sls_thrust (engine_num_wing_engines nacelle_avg_diameter
    nacelle_avg_length nacelle_mass_scaler engine_scaled_sls_thrust : ℝ) (h0 : 0 <
    engine_scaled_sls_thrust) :
    HasDerivAt (fun t => out_nacelle_mass engine_num_wing_engines nacelle_avg_diameter nacelle_avg_length nacelle_mass_scaler t) (J_nacelle_mass__engine_scaled_sls_thrust engine_num_wing_engines nacelle_avg_diameter nacelle_avg_length nacelle_mass_scaler engine_scaled_sls_thrust) engine_scaled_sls_thrust := by
  have e0 : ∀ x : ℝ, 0 < x → x ^ ((-(16 / 25)) : ℝ) = x ^ ((9 / 25) : ℝ) / x ^ 1 := fun x hx => rpow_down hx 1 (by norm_num)
  simp only [out_nacelle_mass, J_nacelle_mass__engine_scaled_sls_thrust]
  (apply hasDerivAt_of_eq; on_goal 1 => (repeat' comp_step))
  all_goals try comp_side
  all_goals try simp (disch := first | assumption | positivity) only [e0]
  all_goals try simp only [mul_zero, zero_mul, add_zero, zero_add, sub_zero, zero_sub, mul_one, one_mul]
  all_goals try push_cast
  all_goals comp_eq

/-- Every partial derivative set by `NacelleMass` is the derivative of its output. -/
theorem partials (engine_num_wing_engines nacelle_avg_diameter nacelle_avg_length
    nacelle_mass_scaler engine_scaled_sls_thrust : ℝ) (h0 : 0 < engine_scaled_sls_thrust) :
    HasDerivAt (fun t => out_nacelle_mass engine_num_wing_engines t nacelle_avg_length
      nacelle_mass_scaler engine_scaled_sls_thrust) (J_nacelle_mass__nacelle_avg_diameter
      engine_num_wing_engines nacelle_avg_length nacelle_mass_scaler engine_scaled_sls_thrust)
      nacelle_avg_diameter ∧
    HasDerivAt (fun t => out_nacelle_mass engine_num_wing_engines nacelle_avg_diameter t
      nacelle_mass_scaler engine_scaled_sls_thrust) (J_nacelle_mass__nacelle_avg_length
      engine_num_wing_engines nacelle_avg_diameter nacelle_mass_scaler engine_scaled_sls_thrust)
      nacelle_avg_length ∧
    HasDerivAt (fun t => out_nacelle_mass engine_num_wing_engines nacelle_avg_diameter
      nacelle_avg_length t engine_scaled_sls_thrust) (J_nacelle_mass__nacelle_mass_scaler
      engine_num_wing_engines nacelle_avg_diameter nacelle_avg_length engine_scaled_sls_thrust)
      nacelle_mass_scaler ∧
    HasDerivAt (fun t => out_nacelle_mass engine_num_wing_engines nacelle_avg_diameter
      nacelle_avg_length nacelle_mass_scaler t) (J_nacelle_mass__engine_scaled_sls_thrust
      engine_num_wing_engines nacelle_avg_diameter nacelle_avg_length nacelle_mass_scaler
      engine_scaled_sls_thrust) engine_scaled_sls_thrust :=
  ⟨d_nacelle_mass__nacelle_avg_diameter _ _ _ _ _ h0, d_nacelle_mass__nacelle_avg_length _ _ _ _ _
    h0, d_nacelle_mass__nacelle_mass_scaler _ _ _ _ _ h0, d_nacelle_mass__engine_scaled_sls_thrust
    _ _ _ _ _ h0⟩

example : ∃ engine_num_wing_engines nacelle_avg_diameter nacelle_avg_length nacelle_mass_scaler
      engine_scaled_sls_thrust : ℝ,
      0 < engine_scaled_sls_thrust :=
  ⟨0, 0, 0, 0, 1, by comp_example⟩

end Verif.Comp.MassFlopsBasedNacelle.NacelleMass_blendedwingbody

namespace Verif.Comp.MassFlopsBasedNacelle.NacelleMass_otherdesigntype
open Real

/-- aviary/subsystems/mass/flops_based/nacelle.py:75 -/
noncomputable def count_factor (engine_num_engines nacelle_count_factor_of_engine_num_engines : ℝ) : ℝ :=
  nacelle_count_factor_of_engine_num_engines / engine_num_engines

/-- aviary/subsystems/mass/flops_based/nacelle.py:98 -/
noncomputable def thrust_exp (engine_scaled_sls_thrust : ℝ) : ℝ :=
  engine_scaled_sls_thrust ^ ((9 / 25) : ℝ)

/-- Output `nacelle_mass` of `NacelleMass.compute`, aviary/subsystems/mass/flops_based/nacelle.py:80 -/
noncomputable def out_nacelle_mass (engine_num_engines nacelle_count_factor_of_engine_num_engines nacelle_avg_diameter nacelle_avg_length nacelle_mass_scaler engine_scaled_sls_thrust : ℝ) : ℝ :=
  (((((1 / 4) * (count_factor engine_num_engines nacelle_count_factor_of_engine_num_engines)) *
    nacelle_avg_diameter) * nacelle_avg_length) * (engine_scaled_sls_thrust ^ ((9 / 25) : ℝ))) *
    nacelle_mass_scaler

/-- Partial of `nacelle_mass` with respect to `engine_scaled_sls_thrust` as set by `NacelleMass`, aviary/subsystems/mass/flops_based/nacelle.py:109 -/
noncomputable def J_nacelle_mass__engine_scaled_sls_thrust (engine_num_engines nacelle_count_factor_of_engine_num_engines nacelle_avg_diameter nacelle_avg_length nacelle_mass_scaler engine_scaled_sls_thrust : ℝ) : ℝ :=
  (((((9 / 100) * (count_factor engine_num_engines nacelle_count_factor_of_engine_num_engines))
    * nacelle_avg_diameter) * nacelle_avg_length) * (engine_scaled_sls_thrust ^ ((-(16 / 25)) :
    ℝ))) * nacelle_mass_scaler

/-- Partial of `nacelle_mass` with respect to `nacelle_avg_diameter` as set by `NacelleMass`, aviary/subsystems/mass/flops_based/nacelle.py:100 -/
noncomputable def J_nacelle_mass__nacelle_avg_diameter (engine_num_engines nacelle_count_factor_of_engine_num_engines nacelle_avg_length nacelle_mass_scaler engine_scaled_sls_thrust : ℝ) : ℝ :=
  ((((1 / 4) * (count_factor engine_num_engines nacelle_count_factor_of_engine_num_engines)) *
    nacelle_avg_length) * (thrust_exp engine_scaled_sls_thrust)) * nacelle_mass_scaler

/-- Partial of `nacelle_mass` with respect to `nacelle_avg_length` as set by `NacelleMass`, aviary/subsystems/mass/flops_based/nacelle.py:103 -/
noncomputable def J_nacelle_mass__nacelle_avg_length (engine_num_engines nacelle_count_factor_of_engine_num_engines nacelle_avg_diameter nacelle_mass_scaler engine_scaled_sls_thrust : ℝ) : ℝ :=
  ((((1 / 4) * (count_factor engine_num_engines nacelle_count_factor_of_engine_num_engines)) *
    nacelle_avg_diameter) * (thrust_exp engine_scaled_sls_thrust)) * nacelle_mass_scaler

/-- Partial of `nacelle_mass` with respect to `nacelle_mass_scaler` as set by `NacelleMass`, aviary/subsystems/mass/flops_based/nacelle.py:106 -/
noncomputable def J_nacelle_mass__nacelle_mass_scaler (engine_num_engines nacelle_count_factor_of_engine_num_engines nacelle_avg_diameter nacelle_avg_length engine_scaled_sls_thrust : ℝ) : ℝ :=
  ((((1 / 4) * (count_factor engine_num_engines nacelle_count_factor_of_engine_num_engines)) *
    nacelle_avg_diameter) * nacelle_avg_length) * (thrust_exp engine_scaled_sls_thrust)

theorem d_nacelle_mass__nacelle_avg_diameter (engine_num_engines
    nacelle_count_factor_of_engine_num_engines nacelle_avg_diameter nacelle_avg_length
    nacelle_mass_scaler engine_scaled_sls_thrust : ℝ) (h0 : 0 < engine_num_engines) (h1 : 0 <
    engine_scaled_sls_thrust) :
    HasDerivAt (fun t => out_nacelle_mass engine_num_engines nacelle_count_factor_of_engine_num_engines t nacelle_avg_length nacelle_mass_scaler engine_scaled_sls_thrust) (J_nacelle_mass__nacelle_avg_diameter engine_num_engines nacelle_count_factor_of_engine_num_engines nacelle_avg_length nacelle_mass_scaler engine_scaled_sls_thrust) nacelle_avg_diameter := by
  simp only [out_nacelle_mass, J_nacelle_mass__nacelle_avg_diameter, thrust_exp, count_factor]
  (apply hasDerivAt_of_eq; on_goal 1 => (repeat' comp_step))
  all_goals try comp_side
  all_goals try simp only [mul_zero, zero_mul, add_zero, zero_add, sub_zero, zero_sub, mul_one, one_mul]
  all_goals try push_cast
  all_goals comp_eq

theorem d_nacelle_mass__nacelle_avg_length (engine_num_engines
    nacelle_count_factor_of_engine_num_engines nacelle_avg_diameter nacelle_avg_length
    nacelle_mass_scaler engine_scaled_sls_thrust : ℝ) (h0 : 0 < engine_num_engines) (h1 : 0 <
    engine_scaled_sls_thrust) :
    HasDerivAt (fun t => out_nacelle_mass engine_num_engines nacelle_count_factor_of_engine_num_engines nacelle_avg_diameter t nacelle_mass_scaler engine_scaled_sls_thrust) (J_nacelle_mass__nacelle_avg_length engine_num_engines nacelle_count_factor_of_engine_num_engines nacelle_avg_diameter nacelle_mass_scaler engine_scaled_sls_thrust) nacelle_avg_length := by
  simp only [out_nacelle_mass, J_nacelle_mass__nacelle_avg_length, thrust_exp, count_factor]
  (apply hasDerivAt_of_eq; on_goal 1 => (repeat' comp_step))
  all_goals try comp_side
  all_goals try simp only [mul_zero, zero_mul, add_zero, zero_add, sub_zero, zero_sub, mul_one, one_mul]
  all_goals try push_cast
  all_goals comp_eq

theorem d_nacelle_mass__nacelle_mass_scaler (engine_num_engines
    nacelle_count_factor_of_engine_num_engines nacelle_avg_diameter nacelle_avg_length
    nacelle_mass_scaler engine_scaled_sls_thrust : ℝ) (h0 : 0 < engine_num_engines) (h1 : 0 <
    engine_scaled_sls_thrust) :
    HasDerivAt (fun t => out_nacelle_mass engine_num_engines nacelle_count_factor_of_engine_num_engines nacelle_avg_diameter nacelle_avg_length t engine_scaled_sls_thrust) (J_nacelle_mass__nacelle_mass_scaler engine_num_engines nacelle_count_factor_of_engine_num_engines nacelle_avg_diameter nacelle_avg_length engine_scaled_sls_thrust) nacelle_mass_scaler := by
  simp only [out_nacelle_mass, J_nacelle_mass__nacelle_mass_scaler, thrust_exp, count_factor]
  (apply hasDerivAt_of_eq; on_goal 1 => (repeat' comp_step))
  all_goals try comp_side
  all_goals try simp only [mul_zero, zero_mul, add_zero, zero_add, sub_zero, zero_sub, mul_one, one_mul]
  all_goals try push_cast
  all_goals comp_eq

theorem d_nacelle_mass__engine_scaled_sls_thrust (engine_num_engines
    nacelle_count_factor_of_engine_num_engines nacelle_avg_diameter nacelle_avg_length
    nacelle_mass_scaler engine_scaled_sls_thrust : ℝ) (h0 : 0 < engine_num_engines) (h1 : 0 <
    engine_scaled_sls_thrust) :
    HasDerivAt (fun t => out_nacelle_mass engine_num_engines nacelle_count_factor_of_engine_num_engines nacelle_avg_diameter nacelle_avg_length nacelle_mass_scaler t) (J_nacelle_mass__engine_scaled_sls_thrust engine_num_engines nacelle_count_factor_of_engine_num_engines nacelle_avg_diameter nacelle_avg_length nacelle_mass_scaler engine_scaled_sls_thrust) engine_scaled_sls_thrust := by
  have e0 : ∀ x : ℝ, 0 < x → x ^ ((-(16 / 25)) : ℝ) = x ^ ((9 / 25) : ℝ) / x ^ 1 := fun x hx => rpow_down hx 1 (by norm_num)
  simp only [out_nacelle_mass, J_nacelle_mass__engine_scaled_sls_thrust, count_factor]
  (apply hasDerivAt_of_eq; on_goal 1 => (repeat' comp_step))
  all_goals try comp_side
  all_goals try simp (disch := first | assumption | positivity) only [e0]
  all_goals try simp only [mul_zero, zero_mul, add_zero, zero_add, sub_zero, zero_sub, mul_one, one_mul]
  all_goals try push_cast
  all_goals comp_eq

/-- Every partial derivative set by `NacelleMass` is the derivative of its output. -/
theorem partials (engine_num_engines nacelle_count_factor_of_engine_num_engines
    nacelle_avg_diameter nacelle_avg_length nacelle_mass_scaler engine_scaled_sls_thrust : ℝ) (h0
    : 0 < engine_num_engines) (h1 : 0 < engine_scaled_sls_thrust) :
    HasDerivAt (fun t => out_nacelle_mass engine_num_engines
      nacelle_count_factor_of_engine_num_engines t nacelle_avg_length nacelle_mass_scaler
      engine_scaled_sls_thrust) (J_nacelle_mass__nacelle_avg_diameter engine_num_engines
      nacelle_count_factor_of_engine_num_engines nacelle_avg_length nacelle_mass_scaler
      engine_scaled_sls_thrust) nacelle_avg_diameter ∧
    HasDerivAt (fun t => out_nacelle_mass engine_num_engines
      nacelle_count_factor_of_engine_num_engines nacelle_avg_diameter t nacelle_mass_scaler
      engine_scaled_sls_thrust) (J_nacelle_mass__nacelle_avg_length engine_num_engines
      nacelle_count_factor_of_engine_num_engines nacelle_avg_diameter nacelle_mass_scaler
      engine_scaled_sls_thrust) nacelle_avg_length ∧
    HasDerivAt (fun t => out_nacelle_mass engine_num_engines
      nacelle_count_factor_of_engine_num_engines nacelle_avg_diameter nacelle_avg_length t
      engine_scaled_sls_thrust) (J_nacelle_mass__nacelle_mass_scaler engine_num_engines
      nacelle_count_factor_of_engine_num_engines nacelle_avg_diameter nacelle_avg_length
      engine_scaled_sls_thrust) nacelle_mass_scaler ∧
    HasDerivAt (fun t => out_nacelle_mass engine_num_engines
      nacelle_count_factor_of_engine_num_engines nacelle_avg_diameter nacelle_avg_length
      nacelle_mass_scaler t) (J_nacelle_mass__engine_scaled_sls_thrust engine_num_engines
      nacelle_count_factor_of_engine_num_engines nacelle_avg_diameter nacelle_avg_length
      nacelle_mass_scaler engine_scaled_sls_thrust) engine_scaled_sls_thrust :=
  ⟨d_nacelle_mass__nacelle_avg_diameter _ _ _ _ _ _ h0 h1, d_nacelle_mass__nacelle_avg_length _ _
    _ _ _ _ h0 h1, d_nacelle_mass__nacelle_mass_scaler _ _ _ _ _ _ h0 h1,
    d_nacelle_mass__engine_scaled_sls_thrust _ _ _ _ _ _ h0 h1⟩

example : ∃ engine_num_engines nacelle_count_factor_of_engine_num_engines nacelle_avg_diameter
      nacelle_avg_length nacelle_mass_scaler engine_scaled_sls_thrust : ℝ,
      0 < engine_num_engines ∧
      0 < engine_scaled_sls_thrust :=
  ⟨1, 0, 0, 0, 0, 1, by comp_example, by comp_example⟩

end Verif.Comp.MassFlopsBasedNacelle.NacelleMass_otherdesigntype

