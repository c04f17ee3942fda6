import Verif.Lemmas.CompDeriv

/-! # Partial derivatives of the components of `aviary/mission/solved_two_dof/ode/gamma_comp.py`

One node of a vector component is modelled over the real numbers.  Each option that selects a
branch is fixed, one namespace per choice.  `out_x` is the output `x`, `J_x__y` the entry that
`compute_partials` (or `declare_partials` with `val`) assigns, `d_x__y` the proof that the entry is
the derivative.  Inputs an output does not take as argument have no influence on it. -/

set_option linter.all false

namespace Verif.Comp.MissionSolvedTwoDofOdeGammaComp.GammaComp
open Real

/-- Output `mission_flight_path_angle` of `GammaComp.compute`, aviary/mission/solved_two_dof/ode/gamma_comp.py:57 -/
noncomputable def out_mission_flight_path_angle (dh_dr : ℝ) : ℝ := arctan dh_dr

/-- Output `dgam_dr` of `GammaComp.compute`, aviary/mission/solved_two_dof/ode/gamma_comp.py:58 -/
noncomputable def out_dgam_dr (dh_dr d2h_dr2 : ℝ) : ℝ := d2h_dr2 / ((dh_dr ^ 2) + 1)

/-- Partial of `mission_flight_path_angle` with respect to `dh_dr` as set by `GammaComp`, aviary/mission/solved_two_dof/ode/gamma_comp.py:64 -/
noncomputable def J_mission_flight_path_angle__dh_dr (dh_dr : ℝ) : ℝ := 1 / ((dh_dr ^ 2) + 1)

/-- Partial of `dgam_dr` with respect to `dh_dr` as set by `GammaComp`, aviary/mission/solved_two_dof/ode/gamma_comp.py:65 -/
noncomputable def J_dgam_dr__dh_dr (dh_dr d2h_dr2 : ℝ) : ℝ :=
  (((-d2h_dr2) * dh_dr) * 2) / (((dh_dr ^ 2) + 1) ^ 2)

/-- Partial of `dgam_dr` with respect to `d2h_dr2` as set by `GammaComp`, aviary/mission/solved_two_dof/ode/gamma_comp.py:66 -/
noncomputable def J_dgam_dr__d2h_dr2 (dh_dr : ℝ) : ℝ := 1 / ((dh_dr ^ 2) + 1)

theorem d_mission_flight_path_angle__dh_dr (dh_dr : ℝ)  :
    HasDerivAt (fun t => out_mission_flight_path_angle t) (J_mission_flight_path_angle__dh_dr dh_dr) dh_dr := by
  simp only [out_mission_flight_path_angle, J_mission_flight_path_angle__dh_dr]
  (apply hasDerivAt_of_eq; on_goal 1 => (repeat' comp_step))
  all_goals try comp_side
  all_goals try simp only [mul_zero, zero_mul, add_zero, zero_add, sub_zero, zero_sub, mul_one, one_mul]
  all_goals try push_cast
  all_goals comp_eq

theorem d_dgam_dr__dh_dr (dh_dr d2h_dr2 : ℝ)  :
    HasDerivAt (fun t => out_dgam_dr t d2h_dr2) (J_dgam_dr__dh_dr dh_dr d2h_dr2) dh_dr := by
  simp only [out_dgam_dr, J_dgam_dr__dh_dr]
  (apply hasDerivAt_of_eq; on_goal 1 => (repeat' comp_step))
  all_goals try comp_side
  all_goals try simp only [mul_zero, zero_mul, add_zero, zero_add, sub_zero, zero_sub, mul_one, one_mul]
  all_goals try push_cast
  all_goals comp_eq

theorem d_dgam_dr__d2h_dr2 (dh_dr d2h_dr2 : ℝ)  :
    HasDerivAt (fun t => out_dgam_dr dh_dr t) (J_dgam_dr__d2h_dr2 dh_dr) d2h_dr2 := by
  simp only [out_dgam_dr, J_dgam_dr__d2h_dr2]
  (apply hasDerivAt_of_eq; on_goal 1 => (repeat' comp_step))
  all_goals try comp_side
  all_goals try simp only [mul_zero, zero_mul, add_zero, zero_add, sub_zero, zero_sub, mul_one, one_mul]
  all_goals try push_cast
  all_goals comp_eq

/-- Every partial derivative set by `GammaComp` is the derivative of its output. -/
theorem partials (dh_dr d2h_dr2 : ℝ) :
    HasDerivAt (fun t => out_mission_flight_path_angle t) (J_mission_flight_path_angle__dh_dr dh_dr)
      dh_dr ∧
    HasDerivAt (fun t => out_dgam_dr t d2h_dr2) (J_dgam_dr__dh_dr dh_dr d2h_dr2) dh_dr ∧
    HasDerivAt (fun t => out_dgam_dr dh_dr t) (J_dgam_dr__d2h_dr2 dh_dr) d2h_dr2 :=
  ⟨d_mission_flight_path_angle__dh_dr _, d_dgam_dr__dh_dr _ _, d_dgam_dr__d2h_dr2 _ _⟩

end Verif.Comp.MissionSolvedTwoDofOdeGammaComp.GammaComp

