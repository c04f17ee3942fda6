import Verif.Lemmas.CompDeriv

/-! # Partial derivatives of the components of `aviary/subsystems/mass/flops_based/cargo_containers.py`

One node of a vector component is modelled over the real numbers.  Each option that selects a
branch is fixed, one namespace per choice.  `out_x` is the output `x`, `J_x__y` the entry that
`compute_partials` (or `declare_partials` with `val`) assigns, `d_x__y` the proof that the entry is
the derivative.  Inputs an output does not take as argument have no influence on it. -/

set_option linter.all false

namespace Verif.Comp.MassFlopsBasedCargoContainers.TransportCargoContainersMass
open Real

/-- aviary/subsystems/mass/flops_based/cargo_containers.py:32 -/
noncomputable def temp (crewpayload_cargo_mass crewpayload_baggage_mass : ℝ) : ℝ :=
  ((crewpayload_cargo_mass + crewpayload_baggage_mass) / 950) + (99 / 100)

/-- aviary/subsystems/mass/flops_based/cargo_containers.py:33 -/
noncomputable def container_count (crewpayload_cargo_mass crewpayload_baggage_mass : ℝ) : ℝ :=
  sinInt4 (temp crewpayload_cargo_mass crewpayload_baggage_mass)

/-- aviary/subsystems/mass/flops_based/cargo_containers.py:34 -/
noncomputable def cargo_container_weight (crewpayload_cargo_container_mass_scaler crewpayload_cargo_mass crewpayload_baggage_mass : ℝ) : ℝ :=
  ((container_count crewpayload_cargo_mass crewpayload_baggage_mass) * 175) *
    crewpayload_cargo_container_mass_scaler

/-- aviary/subsystems/mass/flops_based/cargo_containers.py:48 -/
noncomputable def partial_ (crewpayload_cargo_mass crewpayload_baggage_mass : ℝ) : ℝ :=
  ((dSinInt4 (temp crewpayload_cargo_mass crewpayload_baggage_mass)) / 950) * 175

/-- Output `crewpayload_cargo_container_mass` of `TransportCargoContainersMass.compute`, aviary/subsystems/mass/flops_based/cargo_containers.py:36 -/
noncomputable def out_crewpayload_cargo_container_mass (crewpayload_cargo_container_mass_scaler crewpayload_cargo_mass crewpayload_baggage_mass : ℝ) : ℝ :=
  cargo_container_weight crewpayload_cargo_container_mass_scaler crewpayload_cargo_mass
    crewpayload_baggage_mass

/-- Partial of `crewpayload_cargo_container_mass` with respect to `crewpayload_cargo_container_mass_scaler` as set by `TransportCargoContainersMass`, aviary/subsystems/mass/flops_based/cargo_containers.py:50 -/
noncomputable def J_crewpayload_cargo_container_mass__crewpayload_cargo_container_mass_scaler (crewpayload_cargo_mass crewpayload_baggage_mass : ℝ) : ℝ :=
  (container_count crewpayload_cargo_mass crewpayload_baggage_mass) * 175

/-- Partial of `crewpayload_cargo_container_mass` with respect to `crewpayload_cargo_mass` as set by `TransportCargoContainersMass`, aviary/subsystems/mass/flops_based/cargo_containers.py:55 -/
noncomputable def J_crewpayload_cargo_container_mass__crewpayload_cargo_mass (crewpayload_cargo_container_mass_scaler crewpayload_cargo_mass crewpayload_baggage_mass : ℝ) : ℝ :=
  (partial_ crewpayload_cargo_mass crewpayload_baggage_mass) *
    crewpayload_cargo_container_mass_scaler

/-- Partial of `crewpayload_cargo_container_mass` with respect to `crewpayload_baggage_mass` as set by `TransportCargoContainersMass`, aviary/subsystems/mass/flops_based/cargo_containers.py:59 -/
noncomputable def J_crewpayload_cargo_container_mass__crewpayload_baggage_mass (crewpayload_cargo_container_mass_scaler crewpayload_cargo_mass crewpayload_baggage_mass : ℝ) : ℝ :=
  (partial_ crewpayload_cargo_mass crewpayload_baggage_mass) *
    crewpayload_cargo_container_mass_scaler

theorem d_crewpayload_cargo_container_mass__crewpayload_cargo_container_mass_scaler
    (crewpayload_cargo_container_mass_scaler crewpayload_cargo_mass crewpayload_baggage_mass : ℝ)
    :
    HasDerivAt (fun t => out_crewpayload_cargo_container_mass t crewpayload_cargo_mass crewpayload_baggage_mass) (J_crewpayload_cargo_container_mass__crewpayload_cargo_container_mass_scaler crewpayload_cargo_mass crewpayload_baggage_mass) crewpayload_cargo_container_mass_scaler := by
  simp only [out_crewpayload_cargo_container_mass, J_crewpayload_cargo_container_mass__crewpayload_cargo_container_mass_scaler, cargo_container_weight, container_count, temp]
  (apply hasDerivAt_of_eq; on_goal 1 => (repeat' comp_step))
  all_goals try comp_side
  all_goals try simp only [mul_zero, zero_mul, add_zero, zero_add, sub_zero, zero_sub, mul_one, one_mul]
  all_goals try push_cast
  all_goals comp_eq

theorem d_crewpayload_cargo_container_mass__crewpayload_cargo_mass
    (crewpayload_cargo_container_mass_scaler crewpayload_cargo_mass crewpayload_baggage_mass : ℝ)
    :
    HasDerivAt (fun t => out_crewpayload_cargo_container_mass crewpayload_cargo_container_mass_scaler t crewpayload_baggage_mass) (J_crewpayload_cargo_container_mass__crewpayload_cargo_mass crewpayload_cargo_container_mass_scaler crewpayload_cargo_mass crewpayload_baggage_mass) crewpayload_cargo_mass := by
  simp only [out_crewpayload_cargo_container_mass, J_crewpayload_cargo_container_mass__crewpayload_cargo_mass, partial_, cargo_container_weight, container_count, temp]
  (apply hasDerivAt_of_eq; on_goal 1 => (repeat' comp_step))
  all_goals try comp_side
  all_goals try simp only [mul_zero, zero_mul, add_zero, zero_add, sub_zero, zero_sub, mul_one, one_mul]
  all_goals try push_cast
  all_goals comp_eq

theorem d_crewpayload_cargo_container_mass__crewpayload_baggage_mass
    (crewpayload_cargo_container_mass_scaler crewpayload_cargo_mass crewpayload_baggage_mass : ℝ)
    :
    HasDerivAt (fun t => out_crewpayload_cargo_container_mass crewpayload_cargo_container_mass_scaler crewpayload_cargo_mass t) (J_crewpayload_cargo_container_mass__crewpayload_baggage_mass crewpayload_cargo_container_mass_scaler crewpayload_cargo_mass crewpayload_baggage_mass) crewpayload_baggage_mass := by
  simp only [out_crewpayload_cargo_container_mass, J_crewpayload_cargo_container_mass__crewpayload_baggage_mass, partial_, cargo_container_weight, container_count, temp]
  (apply hasDerivAt_of_eq; on_goal 1 => (repeat' comp_step))
  all_goals try comp_side
  all_goals try simp only [mul_zero, zero_mul, add_zero, zero_add, sub_zero, zero_sub, mul_one, one_mul]
  all_goals try push_cast
  all_goals comp_eq

/-- Every partial derivative set by `TransportCargoContainersMass` is the derivative of its output. -/
theorem partials (crewpayload_cargo_container_mass_scaler crewpayload_cargo_mass
    crewpayload_baggage_mass : ℝ) :
    HasDerivAt (fun t => out_crewpayload_cargo_container_mass t crewpayload_cargo_mass
      crewpayload_baggage_mass)
      (J_crewpayload_cargo_container_mass__crewpayload_cargo_container_mass_scaler
      crewpayload_cargo_mass crewpayload_baggage_mass) crewpayload_cargo_container_mass_scaler ∧
    HasDerivAt (fun t => out_crewpayload_cargo_container_mass crewpayload_cargo_container_mass_scaler
      t crewpayload_baggage_mass) (J_crewpayload_cargo_container_mass__crewpayload_cargo_mass
      crewpayload_cargo_container_mass_scaler crewpayload_cargo_mass crewpayload_baggage_mass)
      crewpayload_cargo_mass ∧
    HasDerivAt (fun t => out_crewpayload_cargo_container_mass crewpayload_cargo_container_mass_scaler
      crewpayload_cargo_mass t) (J_crewpayload_cargo_container_mass__crewpayload_baggage_mass
      crewpayload_cargo_container_mass_scaler crewpayload_cargo_mass crewpayload_baggage_mass)
      crewpayload_baggage_mass :=
  ⟨d_crewpayload_cargo_container_mass__crewpayload_cargo_container_mass_scaler _ _ _,
    d_crewpayload_cargo_container_mass__crewpayload_cargo_mass _ _ _,
    d_crewpayload_cargo_container_mass__crewpayload_baggage_mass _ _ _⟩

end Verif.Comp.MassFlopsBasedCargoContainers.TransportCargoContainersMass

