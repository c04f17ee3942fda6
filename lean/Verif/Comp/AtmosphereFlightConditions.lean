import Verif.Lemmas.CompDeriv

/-! # Partial derivatives of the components of `aviary/subsystems/atmosphere/flight_conditions.py`

One node of a vector component is modelled over the real numbers.  Each option that selects a
branch is fixed, one namespace per choice.  `out_x` is the output `x`, `J_x__y` the entry that
`compute_partials` (or `declare_partials` with `val`) assigns, `d_x__y` the proof that the entry is
the derivative.  Inputs an output does not take as argument have no influence on it. -/

set_option linter.all false

namespace Verif.Comp.AtmosphereFlightConditions.FlightConditions_tas
open Real

/-- aviary/subsystems/atmosphere/flight_conditions.py:186 -/
noncomputable def mach (atmosphere_speed_of_sound mission_velocity : ℝ) : ℝ :=
  mission_velocity / atmosphere_speed_of_sound

/-- Output `atmosphere_mach` of `FlightConditions.compute`, aviary/subsystems/atmosphere/flight_conditions.py:186 -/
noncomputable def out_atmosphere_mach (atmosphere_speed_of_sound mission_velocity : ℝ) : ℝ :=
  mach atmosphere_speed_of_sound mission_velocity

/-- Output `eas` of `FlightConditions.compute`, aviary/subsystems/atmosphere/flight_conditions.py:187 -/
noncomputable def out_eas (sea_level_density atmosphere_density mission_velocity : ℝ) : ℝ :=
  mission_velocity * ((atmosphere_density / sea_level_density) ^ ((1 / 2) : ℝ))

/-- Output `atmosphere_dynamic_pressure` of `FlightConditions.compute`, aviary/subsystems/atmosphere/flight_conditions.py:188 -/
noncomputable def out_atmosphere_dynamic_pressure (atmosphere_density mission_velocity : ℝ) : ℝ :=
  ((1 / 2) * atmosphere_density) * (mission_velocity ^ 2)

/-- Partial of `atmosphere_dynamic_pressure` with respect to `mission_velocity` as set by `FlightConditions`, aviary/subsystems/atmosphere/flight_conditions.py:212 -/
noncomputable def J_atmosphere_dynamic_pressure__mission_velocity (atmosphere_density mission_velocity : ℝ) : ℝ :=
  atmosphere_density * mission_velocity

/-- Partial of `atmosphere_dynamic_pressure` with respect to `atmosphere_density` as set by `FlightConditions`, aviary/subsystems/atmosphere/flight_conditions.py:213 -/
noncomputable def J_atmosphere_dynamic_pressure__atmosphere_density (mission_velocity : ℝ) : ℝ :=
  (1 / 2) * (mission_velocity ^ 2)

/-- Partial of `atmosphere_mach` with respect to `mission_velocity` as set by `FlightConditions`, aviary/subsystems/atmosphere/flight_conditions.py:215 -/
noncomputable def J_atmosphere_mach__mission_velocity (atmosphere_speed_of_sound : ℝ) : ℝ :=
  1 / atmosphere_speed_of_sound

/-- Partial of `atmosphere_mach` with respect to `atmosphere_speed_of_sound` as set by `FlightConditions`, aviary/subsystems/atmosphere/flight_conditions.py:216 -/
noncomputable def J_atmosphere_mach__atmosphere_speed_of_sound (atmosphere_speed_of_sound mission_velocity : ℝ) : ℝ :=
  (-mission_velocity) / (atmosphere_speed_of_sound ^ 2)

/-- Partial of `eas` with respect to `mission_velocity` as set by `FlightConditions`, aviary/subsystems/atmosphere/flight_conditions.py:218 -/
noncomputable def J_eas__mission_velocity (sea_level_density atmosphere_density : ℝ) : ℝ :=
  (atmosphere_density / sea_level_density) ^ ((1 / 2) : ℝ)

/-- Partial of `eas` with respect to `atmosphere_density` as set by `FlightConditions`, aviary/subsystems/atmosphere/flight_conditions.py:219 -/
noncomputable def J_eas__atmosphere_density (sea_level_density atmosphere_density mission_velocity : ℝ) : ℝ :=
  (mission_velocity * (1 / 2)) * ((atmosphere_density ^ ((-(1 / 2)) : ℝ)) / (sea_level_density ^
    ((1 / 2) : ℝ)))

theorem d_atmosphere_mach__atmosphere_speed_of_sound (atmosphere_speed_of_sound mission_velocity :
    ℝ) (h0 : 0 < atmosphere_speed_of_sound) :
    HasDerivAt (fun t => out_atmosphere_mach t mission_velocity) (J_atmosphere_mach__atmosphere_speed_of_sound atmosphere_speed_of_sound mission_velocity) atmosphere_speed_of_sound := by
  simp only [out_atmosphere_mach, J_atmosphere_mach__atmosphere_speed_of_sound, mach]
  (apply hasDerivAt_of_eq; on_goal 1 => (repeat' comp_step))
  all_goals try comp_side
  all_goals try simp only [mul_zero, zero_mul, add_zero, zero_add, sub_zero, zero_sub, mul_one, one_mul]
  all_goals try push_cast
  all_goals comp_eq

theorem d_atmosphere_mach__mission_velocity (atmosphere_speed_of_sound mission_velocity : ℝ) (h0 :
    0 < atmosphere_speed_of_sound) :
    HasDerivAt (fun t => out_atmosphere_mach atmosphere_speed_of_sound t) (J_atmosphere_mach__mission_velocity atmosphere_speed_of_sound) mission_velocity := by
  simp only [out_atmosphere_mach, J_atmosphere_mach__mission_velocity, mach]
  (apply hasDerivAt_of_eq; on_goal 1 => (repeat' comp_step))
  all_goals try comp_side
  all_goals try simp only [mul_zero, zero_mul, add_zero, zero_add, sub_zero, zero_sub, mul_one, one_mul]
  all_goals try push_cast
  all_goals comp_eq

theorem d_eas__atmosphere_density (sea_level_density atmosphere_density mission_velocity : ℝ) (h0
    : 0 < sea_level_density) (h1 : 0 < atmosphere_density) :
    HasDerivAt (fun t => out_eas sea_level_density t mission_velocity) (J_eas__atmosphere_density sea_level_density atmosphere_density mission_velocity) atmosphere_density := by
  have e0 : ∀ x : ℝ, 0 < x → x ^ ((-(1 / 2)) : ℝ) = x ^ ((1 / 2) : ℝ) / x ^ 1 := fun x hx => rpow_down hx 1 (by norm_num)
  simp only [out_eas, J_eas__atmosphere_density]
  (apply hasDerivAt_of_eq; on_goal 1 => (repeat' comp_step))
  all_goals try comp_side
  all_goals try simp (disch := first | assumption | positivity) only [mul_rpow, div_rpow, e0, div_mul_eq_div_div, div_half, inv_half]
  all_goals try simp only [mul_zero, zero_mul, add_zero, zero_add, sub_zero, zero_sub, mul_one, one_mul]
  all_goals try push_cast
  all_goals comp_eq

theorem d_eas__mission_velocity (sea_level_density atmosphere_density mission_velocity : ℝ) (h0 :
    0 < sea_level_density) (h1 : 0 < atmosphere_density) :
    HasDerivAt (fun t => out_eas sea_level_density atmosphere_density t) (J_eas__mission_velocity sea_level_density atmosphere_density) mission_velocity := by
  simp only [out_eas, J_eas__mission_velocity]
  (apply hasDerivAt_of_eq; on_goal 1 => (repeat' comp_step))
  all_goals try comp_side
  all_goals try simp (disch := first | assumption | positivity) only [div_mul_eq_div_div, div_half, inv_half]
  all_goals try simp only [mul_zero, zero_mul, add_zero, zero_add, sub_zero, zero_sub, mul_one, one_mul]
  all_goals try push_cast
  all_goals comp_eq

theorem d_atmosphere_dynamic_pressure__atmosphere_density (atmosphere_density mission_velocity :
    ℝ)  :
    HasDerivAt (fun t => out_atmosphere_dynamic_pressure t mission_velocity) (J_atmosphere_dynamic_pressure__atmosphere_density mission_velocity) atmosphere_density := by
  simp only [out_atmosphere_dynamic_pressure, J_atmosphere_dynamic_pressure__atmosphere_density]
  (apply hasDerivAt_of_eq; on_goal 1 => (repeat' comp_step))
  all_goals try comp_side
  all_goals try simp only [mul_zero, zero_mul, add_zero, zero_add, sub_zero, zero_sub, mul_one, one_mul]
  all_goals try push_cast
  all_goals comp_eq

theorem d_atmosphere_dynamic_pressure__mission_velocity (atmosphere_density mission_velocity : ℝ)
    :
    HasDerivAt (fun t => out_atmosphere_dynamic_pressure atmosphere_density t) (J_atmosphere_dynamic_pressure__mission_velocity atmosphere_density mission_velocity) mission_velocity := by
  simp only [out_atmosphere_dynamic_pressure, J_atmosphere_dynamic_pressure__mission_velocity]
  (apply hasDerivAt_of_eq; on_goal 1 => (repeat' comp_step))
  all_goals try comp_side
  all_goals try simp only [mul_zero, zero_mul, add_zero, zero_add, sub_zero, zero_sub, mul_one, one_mul]
  all_goals try push_cast
  all_goals comp_eq

/-- Every partial derivative set by `FlightConditions` is the derivative of its output. -/
theorem partials (sea_level_density atmosphere_density atmosphere_speed_of_sound mission_velocity
    : ℝ) (h0 : 0 < atmosphere_speed_of_sound) (h1 : 0 < sea_level_density) (h2 : 0 <
    atmosphere_density) :
    HasDerivAt (fun t => out_atmosphere_mach t mission_velocity)
      (J_atmosphere_mach__atmosphere_speed_of_sound atmosphere_speed_of_sound mission_velocity)
      atmosphere_speed_of_sound ∧
    HasDerivAt (fun t => out_atmosphere_mach atmosphere_speed_of_sound t)
      (J_atmosphere_mach__mission_velocity atmosphere_speed_of_sound) mission_velocity ∧
    HasDerivAt (fun t => out_eas sea_level_density t mission_velocity) (J_eas__atmosphere_density
      sea_level_density atmosphere_density mission_velocity) atmosphere_density ∧
    HasDerivAt (fun t => out_eas sea_level_density atmosphere_density t) (J_eas__mission_velocity
      sea_level_density atmosphere_density) mission_velocity ∧
    HasDerivAt (fun t => out_atmosphere_dynamic_pressure t mission_velocity)
      (J_atmosphere_dynamic_pressure__atmosphere_density mission_velocity) atmosphere_density ∧
    HasDerivAt (fun t => out_atmosphere_dynamic_pressure atmosphere_density t)
      (J_atmosphere_dynamic_pressure__mission_velocity atmosphere_density mission_velocity)
      mission_velocity :=
  ⟨d_atmosphere_mach__atmosphere_speed_of_sound _ _ h0, d_atmosphere_mach__mission_velocity _ _
    h0, d_eas__atmosphere_density _ _ _ h1 h2, d_eas__mission_velocity _ _ _ h1 h2,
    d_atmosphere_dynamic_pressure__atmosphere_density _ _,
    d_atmosphere_dynamic_pressure__mission_velocity _ _⟩

example : ∃ sea_level_density atmosphere_density atmosphere_speed_of_sound mission_velocity : ℝ,
      0 < atmosphere_speed_of_sound ∧
      0 < sea_level_density ∧
      0 < atmosphere_density :=
  ⟨1, 1, 1, 0, by comp_example, by comp_example, by comp_example⟩

end Verif.Comp.AtmosphereFlightConditions.FlightConditions_tas

namespace Verif.Comp.AtmosphereFlightConditions.FlightConditions_eas
open Real

/-- aviary/subsystems/atmosphere/flight_conditions.py:192 -/
noncomputable def tas (sea_level_density atmosphere_density eas : ℝ) : ℝ :=
  eas / ((atmosphere_density / sea_level_density) ^ ((1 / 2) : ℝ))

/-- aviary/subsystems/atmosphere/flight_conditions.py:193 -/
noncomputable def mach (sea_level_density atmosphere_density atmosphere_speed_of_sound eas : ℝ) : ℝ :=
  (tas sea_level_density atmosphere_density eas) / atmosphere_speed_of_sound

/-- aviary/subsystems/atmosphere/flight_conditions.py:225 -/
noncomputable def dtas_drho (sea_level_density atmosphere_density eas : ℝ) : ℝ :=
  (((-(1 / 2)) * eas) * (sea_level_density ^ ((1 / 2) : ℝ))) / (atmosphere_density ^ ((3 / 2) :
    ℝ))

/-- aviary/subsystems/atmosphere/flight_conditions.py:226 -/
noncomputable def dtas_deas (sea_level_density atmosphere_density : ℝ) : ℝ :=
  1 / ((atmosphere_density / sea_level_density) ^ ((1 / 2) : ℝ))

/-- Output `mission_velocity` of `FlightConditions.compute`, aviary/subsystems/atmosphere/flight_conditions.py:192 -/
noncomputable def out_mission_velocity (sea_level_density atmosphere_density eas : ℝ) : ℝ :=
  tas sea_level_density atmosphere_density eas

/-- Output `atmosphere_mach` of `FlightConditions.compute`, aviary/subsystems/atmosphere/flight_conditions.py:193 -/
noncomputable def out_atmosphere_mach (sea_level_density atmosphere_density atmosphere_speed_of_sound eas : ℝ) : ℝ :=
  mach sea_level_density atmosphere_density atmosphere_speed_of_sound eas

/-- Output `atmosphere_dynamic_pressure` of `FlightConditions.compute`, aviary/subsystems/atmosphere/flight_conditions.py:194 -/
noncomputable def out_atmosphere_dynamic_pressure (sea_level_density eas : ℝ) : ℝ :=
  ((1 / 2) * (eas ^ 2)) * sea_level_density

/-- Partial of `atmosphere_dynamic_pressure` with respect to `eas` as set by `FlightConditions`, aviary/subsystems/atmosphere/flight_conditions.py:228 -/
noncomputable def J_atmosphere_dynamic_pressure__eas (sea_level_density eas : ℝ) : ℝ :=
  eas * sea_level_density

/-- Partial of `atmosphere_mach` with respect to `eas` as set by `FlightConditions`, aviary/subsystems/atmosphere/flight_conditions.py:229 -/
noncomputable def J_atmosphere_mach__eas (sea_level_density atmosphere_density atmosphere_speed_of_sound : ℝ) : ℝ :=
  (dtas_deas sea_level_density atmosphere_density) / atmosphere_speed_of_sound

/-- Partial of `atmosphere_mach` with respect to `atmosphere_density` as set by `FlightConditions`, aviary/subsystems/atmosphere/flight_conditions.py:230 -/
noncomputable def J_atmosphere_mach__atmosphere_density (sea_level_density atmosphere_density atmosphere_speed_of_sound eas : ℝ) : ℝ :=
  (dtas_drho sea_level_density atmosphere_density eas) / atmosphere_speed_of_sound

/-- Partial of `atmosphere_mach` with respect to `atmosphere_speed_of_sound` as set by `FlightConditions`, aviary/subsystems/atmosphere/flight_conditions.py:231 -/
noncomputable def J_atmosphere_mach__atmosphere_speed_of_sound (sea_level_density atmosphere_density atmosphere_speed_of_sound eas : ℝ) : ℝ :=
  (-(tas sea_level_density atmosphere_density eas)) / (atmosphere_speed_of_sound ^ 2)

/-- Partial of `mission_velocity` with respect to `atmosphere_density` as set by `FlightConditions`, aviary/subsystems/atmosphere/flight_conditions.py:232 -/
noncomputable def J_mission_velocity__atmosphere_density (sea_level_density atmosphere_density eas : ℝ) : ℝ :=
  dtas_drho sea_level_density atmosphere_density eas

/-- Partial of `mission_velocity` with respect to `eas` as set by `FlightConditions`, aviary/subsystems/atmosphere/flight_conditions.py:233 -/
noncomputable def J_mission_velocity__eas (sea_level_density atmosphere_density : ℝ) : ℝ :=
  dtas_deas sea_level_density atmosphere_density

theorem d_mission_velocity__atmosphere_density (sea_level_density atmosphere_density eas : ℝ) (h0
    : 0 < sea_level_density) (h1 : 0 < atmosphere_density) :
    HasDerivAt (fun t => out_mission_velocity sea_level_density t eas) (J_mission_velocity__atmosphere_density sea_level_density atmosphere_density eas) atmosphere_density := by
  have e0 : ∀ x : ℝ, 0 < x → x ^ ((3 / 2) : ℝ) = x ^ ((1 / 2) : ℝ) * x ^ 1 := fun x hx => rpow_up hx 1 (by norm_num)
  simp only [out_mission_velocity, J_mission_velocity__atmosphere_density, dtas_drho, tas]
  (apply hasDerivAt_of_eq; on_goal 1 => (repeat' comp_step))
  all_goals try comp_side
  all_goals try simp (disch := first | assumption | positivity) only [mul_rpow, div_rpow, e0, div_mul_eq_div_div, div_half, inv_half]
  all_goals try simp only [mul_zero, zero_mul, add_zero, zero_add, sub_zero, zero_sub, mul_one, one_mul]
  all_goals try push_cast
  all_goals comp_eq

theorem d_mission_velocity__eas (sea_level_density atmosphere_density eas : ℝ) (h0 : 0 <
    sea_level_density) (h1 : 0 < atmosphere_density) :
    HasDerivAt (fun t => out_mission_velocity sea_level_density atmosphere_density t) (J_mission_velocity__eas sea_level_density atmosphere_density) eas := by
  simp only [out_mission_velocity, J_mission_velocity__eas, dtas_deas, tas]
  (apply hasDerivAt_of_eq; on_goal 1 => (repeat' comp_step))
  all_goals try comp_side
  all_goals try simp (disch := first | assumption | positivity) only [div_mul_eq_div_div, div_half, inv_half]
  all_goals try simp only [mul_zero, zero_mul, add_zero, zero_add, sub_zero, zero_sub, mul_one, one_mul]
  all_goals try push_cast
  all_goals comp_eq

theorem d_atmosphere_mach__atmosphere_density (sea_level_density atmosphere_density
    atmosphere_speed_of_sound eas : ℝ) (h0 : 0 < sea_level_density) (h1 : 0 < atmosphere_density)
    (h2 : 0 < atmosphere_speed_of_sound) :
    HasDerivAt (fun t => out_atmosphere_mach sea_level_density t atmosphere_speed_of_sound eas) (J_atmosphere_mach__atmosphere_density sea_level_density atmosphere_density atmosphere_speed_of_sound eas) atmosphere_density := by
  have e0 : ∀ x : ℝ, 0 < x → x ^ ((3 / 2) : ℝ) = x ^ ((1 / 2) : ℝ) * x ^ 1 := fun x hx => rpow_up hx 1 (by norm_num)
  simp only [out_atmosphere_mach, J_atmosphere_mach__atmosphere_density, dtas_drho, mach, tas]
  (apply hasDerivAt_of_eq; on_goal 1 => (repeat' comp_step))
  all_goals try comp_side
  all_goals try simp (disch := first | assumption | positivity) only [mul_rpow, div_rpow, e0, div_mul_eq_div_div, div_half, inv_half]
  all_goals try simp only [mul_zero, zero_mul, add_zero, zero_add, sub_zero, zero_sub, mul_one, one_mul]
  all_goals try push_cast
  all_goals comp_eq

theorem d_atmosphere_mach__atmosphere_speed_of_sound (sea_level_density atmosphere_density
    atmosphere_speed_of_sound eas : ℝ) (h0 : 0 < sea_level_density) (h1 : 0 < atmosphere_density)
    (h2 : 0 < atmosphere_speed_of_sound) :
    HasDerivAt (fun t => out_atmosphere_mach sea_level_density atmosphere_density t eas) (J_atmosphere_mach__atmosphere_speed_of_sound sea_level_density atmosphere_density atmosphere_speed_of_sound eas) atmosphere_speed_of_sound := by
  simp only [out_atmosphere_mach, J_atmosphere_mach__atmosphere_speed_of_sound, mach, tas]
  (apply hasDerivAt_of_eq; on_goal 1 => (repeat' comp_step))
  all_goals try comp_side
  all_goals try simp (disch := first | assumption | positivity) only [div_mul_eq_div_div, div_half, inv_half]
  all_goals try simp only [mul_zero, zero_mul, add_zero, zero_add, sub_zero, zero_sub, mul_one, one_mul]
  all_goals try push_cast
  all_goals comp_eq

theorem d_atmosphere_mach__eas (sea_level_density atmosphere_density atmosphere_speed_of_sound eas
    : ℝ) (h0 : 0 < sea_level_density) (h1 : 0 < atmosphere_density) (h2 : 0 <
    atmosphere_speed_of_sound) :
    HasDerivAt (fun t => out_atmosphere_mach sea_level_density atmosphere_density atmosphere_speed_of_sound t) (J_atmosphere_mach__eas sea_level_density atmosphere_density atmosphere_speed_of_sound) eas := by
  simp only [out_atmosphere_mach, J_atmosphere_mach__eas, dtas_deas, mach, tas]
  (apply hasDerivAt_of_eq; on_goal 1 => (repeat' comp_step))
  all_goals try comp_side
  all_goals try simp (disch := first | assumption | positivity) only [div_mul_eq_div_div, div_half, inv_half]
  all_goals try simp only [mul_zero, zero_mul, add_zero, zero_add, sub_zero, zero_sub, mul_one, one_mul]
  all_goals try push_cast
  all_goals comp_eq

theorem d_atmosphere_dynamic_pressure__eas (sea_level_density eas : ℝ)  :
    HasDerivAt (fun t => out_atmosphere_dynamic_pressure sea_level_density t) (J_atmosphere_dynamic_pressure__eas sea_level_density eas) eas := by
  simp only [out_atmosphere_dynamic_pressure, J_atmosphere_dynamic_pressure__eas]
  (apply hasDerivAt_of_eq; on_goal 1 => (repeat' comp_step))
  all_goals try comp_side
  all_goals try simp only [mul_zero, zero_mul, add_zero, zero_add, sub_zero, zero_sub, mul_one, one_mul]
  all_goals try push_cast
  all_goals comp_eq

/-- Every partial derivative set by `FlightConditions` is the derivative of its output. -/
theorem partials (sea_level_density atmosphere_density atmosphere_speed_of_sound eas : ℝ) (h0 : 0
    < sea_level_density) (h1 : 0 < atmosphere_density) (h2 : 0 < atmosphere_speed_of_sound) :
    HasDerivAt (fun t => out_mission_velocity sea_level_density t eas)
      (J_mission_velocity__atmosphere_density sea_level_density atmosphere_density eas)
      atmosphere_density ∧
    HasDerivAt (fun t => out_mission_velocity sea_level_density atmosphere_density t)
      (J_mission_velocity__eas sea_level_density atmosphere_density) eas ∧
    HasDerivAt (fun t => out_atmosphere_mach sea_level_density t atmosphere_speed_of_sound eas)
      (J_atmosphere_mach__atmosphere_density sea_level_density atmosphere_density
      atmosphere_speed_of_sound eas) atmosphere_density ∧
    HasDerivAt (fun t => out_atmosphere_mach sea_level_density atmosphere_density t eas)
      (J_atmosphere_mach__atmosphere_speed_of_sound sea_level_density atmosphere_density
      atmosphere_speed_of_sound eas) atmosphere_speed_of_sound ∧
    HasDerivAt (fun t => out_atmosphere_mach sea_level_density atmosphere_density
      atmosphere_speed_of_sound t) (J_atmosphere_mach__eas sea_level_density atmosphere_density
      atmosphere_speed_of_sound) eas ∧
    HasDerivAt (fun t => out_atmosphere_dynamic_pressure sea_level_density t)
      (J_atmosphere_dynamic_pressure__eas sea_level_density eas) eas :=
  ⟨d_mission_velocity__atmosphere_density _ _ _ h0 h1, d_mission_velocity__eas _ _ _ h0 h1,
    d_atmosphere_mach__atmosphere_density _ _ _ _ h0 h1 h2,
    d_atmosphere_mach__atmosphere_speed_of_sound _ _ _ _ h0 h1 h2, d_atmosphere_mach__eas _ _ _ _
    h0 h1 h2, d_atmosphere_dynamic_pressure__eas _ _⟩

example : ∃ sea_level_density atmosphere_density atmosphere_speed_of_sound eas : ℝ,
      0 < sea_level_density ∧
      0 < atmosphere_density ∧
      0 < atmosphere_speed_of_sound :=
  ⟨1, 1, 1, 0, by comp_example, by comp_example, by comp_example⟩

end Verif.Comp.AtmosphereFlightConditions.FlightConditions_eas

namespace Verif.Comp.AtmosphereFlightConditions.FlightConditions_mach
open Real

/-- aviary/subsystems/atmosphere/flight_conditions.py:198 -/
noncomputable def tas (atmosphere_speed_of_sound atmosphere_mach : ℝ) : ℝ :=
  atmosphere_speed_of_sound * atmosphere_mach

/-- Output `mission_velocity` of `FlightConditions.compute`, aviary/subsystems/atmosphere/flight_conditions.py:198 -/
noncomputable def out_mission_velocity (atmosphere_speed_of_sound atmosphere_mach : ℝ) : ℝ :=
  tas atmosphere_speed_of_sound atmosphere_mach

/-- Output `eas` of `FlightConditions.compute`, aviary/subsystems/atmosphere/flight_conditions.py:199 -/
noncomputable def out_eas (sea_level_density atmosphere_density atmosphere_speed_of_sound atmosphere_mach : ℝ) : ℝ :=
  (tas atmosphere_speed_of_sound atmosphere_mach) * ((atmosphere_density / sea_level_density) ^
    ((1 / 2) : ℝ))

/-- Output `atmosphere_dynamic_pressure` of `FlightConditions.compute`, aviary/subsystems/atmosphere/flight_conditions.py:200 -/
noncomputable def out_atmosphere_dynamic_pressure (atmosphere_density atmosphere_speed_of_sound atmosphere_mach : ℝ) : ℝ :=
  (((1 / 2) * atmosphere_density) * (atmosphere_speed_of_sound ^ 2)) * (atmosphere_mach ^ 2)

/-- Partial of `atmosphere_dynamic_pressure` with respect to `atmosphere_speed_of_sound` as set by `FlightConditions`, aviary/subsystems/atmosphere/flight_conditions.py:239 -/
noncomputable def J_atmosphere_dynamic_pressure__atmosphere_speed_of_sound (atmosphere_density atmosphere_speed_of_sound atmosphere_mach : ℝ) : ℝ :=
  (atmosphere_density * atmosphere_speed_of_sound) * (atmosphere_mach ^ 2)

/-- Partial of `atmosphere_dynamic_pressure` with respect to `atmosphere_mach` as set by `FlightConditions`, aviary/subsystems/atmosphere/flight_conditions.py:242 -/
noncomputable def J_atmosphere_dynamic_pressure__atmosphere_mach (atmosphere_density atmosphere_speed_of_sound atmosphere_mach : ℝ) : ℝ :=
  (atmosphere_density * (atmosphere_speed_of_sound ^ 2)) * atmosphere_mach

/-- Partial of `atmosphere_dynamic_pressure` with respect to `atmosphere_density` as set by `FlightConditions`, aviary/subsystems/atmosphere/flight_conditions.py:243 -/
noncomputable def J_atmosphere_dynamic_pressure__atmosphere_density (atmosphere_speed_of_sound atmosphere_mach : ℝ) : ℝ :=
  ((1 / 2) * (atmosphere_speed_of_sound ^ 2)) * (atmosphere_mach ^ 2)

/-- Partial of `mission_velocity` with respect to `atmosphere_speed_of_sound` as set by `FlightConditions`, aviary/subsystems/atmosphere/flight_conditions.py:246 -/
noncomputable def J_mission_velocity__atmosphere_speed_of_sound (atmosphere_mach : ℝ) : ℝ :=
  atmosphere_mach

/-- Partial of `mission_velocity` with respect to `atmosphere_mach` as set by `FlightConditions`, aviary/subsystems/atmosphere/flight_conditions.py:247 -/
noncomputable def J_mission_velocity__atmosphere_mach (atmosphere_speed_of_sound : ℝ) : ℝ :=
  atmosphere_speed_of_sound

/-- Partial of `eas` with respect to `atmosphere_speed_of_sound` as set by `FlightConditions`, aviary/subsystems/atmosphere/flight_conditions.py:248 -/
noncomputable def J_eas__atmosphere_speed_of_sound (sea_level_density atmosphere_density atmosphere_mach : ℝ) : ℝ :=
  atmosphere_mach * ((atmosphere_density / sea_level_density) ^ ((1 / 2) : ℝ))

/-- Partial of `eas` with respect to `atmosphere_mach` as set by `FlightConditions`, aviary/subsystems/atmosphere/flight_conditions.py:249 -/
noncomputable def J_eas__atmosphere_mach (sea_level_density atmosphere_density atmosphere_speed_of_sound : ℝ) : ℝ :=
  atmosphere_speed_of_sound * ((atmosphere_density / sea_level_density) ^ ((1 / 2) : ℝ))

/-- Partial of `eas` with respect to `atmosphere_density` as set by `FlightConditions`, aviary/subsystems/atmosphere/flight_conditions.py:250 -/
noncomputable def J_eas__atmosphere_density (sea_level_density atmosphere_density atmosphere_speed_of_sound atmosphere_mach : ℝ) : ℝ :=
  (((tas atmosphere_speed_of_sound atmosphere_mach) * ((1 / sea_level_density) ^ ((1 / 2) : ℝ)))
    * (1 / 2)) * (atmosphere_density ^ ((-(1 / 2)) : ℝ))

theorem d_mission_velocity__atmosphere_speed_of_sound (atmosphere_speed_of_sound atmosphere_mach :
    ℝ)  :
    HasDerivAt (fun t => out_mission_velocity t atmosphere_mach) (J_mission_velocity__atmosphere_speed_of_sound atmosphere_mach) atmosphere_speed_of_sound := by
  simp only [out_mission_velocity, J_mission_velocity__atmosphere_speed_of_sound, tas]
  (apply hasDerivAt_of_eq; on_goal 1 => (repeat' comp_step))
  all_goals try comp_side
  all_goals try simp only [mul_zero, zero_mul, add_zero, zero_add, sub_zero, zero_sub, mul_one, one_mul]
  all_goals try push_cast
  all_goals comp_eq

theorem d_mission_velocity__atmosphere_mach (atmosphere_speed_of_sound atmosphere_mach : ℝ)  :
    HasDerivAt (fun t => out_mission_velocity atmosphere_speed_of_sound t) (J_mission_velocity__atmosphere_mach atmosphere_speed_of_sound) atmosphere_mach := by
  simp only [out_mission_velocity, J_mission_velocity__atmosphere_mach, tas]
  (apply hasDerivAt_of_eq; on_goal 1 => (repeat' comp_step))
  all_goals try comp_side
  all_goals try simp only [mul_zero, zero_mul, add_zero, zero_add, sub_zero, zero_sub, mul_one, one_mul]
  all_goals try push_cast
  all_goals comp_eq

theorem d_eas__atmosphere_density (sea_level_density atmosphere_density atmosphere_speed_of_sound
    atmosphere_mach : ℝ) (h0 : 0 < sea_level_density) (h1 : 0 < atmosphere_density) :
    HasDerivAt (fun t => out_eas sea_level_density t atmosphere_speed_of_sound atmosphere_mach) (J_eas__atmosphere_density sea_level_density atmosphere_density atmosphere_speed_of_sound atmosphere_mach) atmosphere_density := by
  have e0 : ∀ x : ℝ, 0 < x → x ^ ((-(1 / 2)) : ℝ) = x ^ ((1 / 2) : ℝ) / x ^ 1 := fun x hx => rpow_down hx 1 (by norm_num)
  simp only [out_eas, J_eas__atmosphere_density, tas]
  (apply hasDerivAt_of_eq; on_goal 1 => (repeat' comp_step))
  all_goals try comp_side
  all_goals try simp (disch := first | assumption | positivity) only [mul_rpow, div_rpow, e0, div_mul_eq_div_div, div_half, inv_half]
  all_goals try simp only [mul_zero, zero_mul, add_zero, zero_add, sub_zero, zero_sub, mul_one, one_mul]
  all_goals try push_cast
  all_goals comp_eq

theorem d_eas__atmosphere_speed_of_sound (sea_level_density atmosphere_density
    atmosphere_speed_of_sound atmosphere_mach : ℝ) (h0 : 0 < sea_level_density) (h1 : 0 <
    atmosphere_density) :
    HasDerivAt (fun t => out_eas sea_level_density atmosphere_density t atmosphere_mach) (J_eas__atmosphere_speed_of_sound sea_level_density atmosphere_density atmosphere_mach) atmosphere_speed_of_sound := by
  simp only [out_eas, J_eas__atmosphere_speed_of_sound, tas]
  (apply hasDerivAt_of_eq; on_goal 1 => (repeat' comp_step))
  all_goals try comp_side
  all_goals try simp (disch := first | assumption | positivity) only [div_mul_eq_div_div, div_half, inv_half]
  all_goals try simp only [mul_zero, zero_mul, add_zero, zero_add, sub_zero, zero_sub, mul_one, one_mul]
  all_goals try push_cast
  all_goals comp_eq

theorem d_eas__atmosphere_mach (sea_level_density atmosphere_density atmosphere_speed_of_sound
    atmosphere_mach : ℝ) (h0 : 0 < sea_level_density) (h1 : 0 < atmosphere_density) :
    HasDerivAt (fun t => out_eas sea_level_density atmosphere_density atmosphere_speed_of_sound t) (J_eas__atmosphere_mach sea_level_density atmosphere_density atmosphere_speed_of_sound) atmosphere_mach := by
  simp only [out_eas, J_eas__atmosphere_mach, tas]
  (apply hasDerivAt_of_eq; on_goal 1 => (repeat' comp_step))
  all_goals try comp_side
  all_goals try simp (disch := first | assumption | positivity) only [div_mul_eq_div_div, div_half, inv_half]
  all_goals try simp only [mul_zero, zero_mul, add_zero, zero_add, sub_zero, zero_sub, mul_one, one_mul]
  all_goals try push_cast
  all_goals comp_eq

theorem d_atmosphere_dynamic_pressure__atmosphere_density (atmosphere_density
    atmosphere_speed_of_sound atmosphere_mach : ℝ)  :
    HasDerivAt (fun t => out_atmosphere_dynamic_pressure t atmosphere_speed_of_sound atmosphere_mach) (J_atmosphere_dynamic_pressure__atmosphere_density atmosphere_speed_of_sound atmosphere_mach) atmosphere_density := by
  simp only [out_atmosphere_dynamic_pressure, J_atmosphere_dynamic_pressure__atmosphere_density]
  (apply hasDerivAt_of_eq; on_goal 1 => (repeat' comp_step))
  all_goals try comp_side
  all_goals try simp only [mul_zero, zero_mul, add_zero, zero_add, sub_zero, zero_sub, mul_one, one_mul]
  all_goals try push_cast
  all_goals comp_eq

theorem d_atmosphere_dynamic_pressure__atmosphere_speed_of_sound (atmosphere_density
    atmosphere_speed_of_sound atmosphere_mach : ℝ)  :
    HasDerivAt (fun t => out_atmosphere_dynamic_pressure atmosphere_density t atmosphere_mach) (J_atmosphere_dynamic_pressure__atmosphere_speed_of_sound atmosphere_density atmosphere_speed_of_sound atmosphere_mach) atmosphere_speed_of_sound := by
  simp only [out_atmosphere_dynamic_pressure, J_atmosphere_dynamic_pressure__atmosphere_speed_of_sound]
  (apply hasDerivAt_of_eq; on_goal 1 => (repeat' comp_step))
  all_goals try comp_side
  all_goals try simp only [mul_zero, zero_mul, add_zero, zero_add, sub_zero, zero_sub, mul_one, one_mul]
  all_goals try push_cast
  all_goals comp_eq

theorem d_atmosphere_dynamic_pressure__atmosphere_mach (atmosphere_density
    atmosphere_speed_of_sound atmosphere_mach : ℝ)  :
    HasDerivAt (fun t => out_atmosphere_dynamic_pressure atmosphere_density atmosphere_speed_of_sound t) (J_atmosphere_dynamic_pressure__atmosphere_mach atmosphere_density atmosphere_speed_of_sound atmosphere_mach) atmosphere_mach := by
  simp only [out_atmosphere_dynamic_pressure, J_atmosphere_dynamic_pressure__atmosphere_mach]
  (apply hasDerivAt_of_eq; on_goal 1 => (repeat' comp_step))
  all_goals try comp_side
  all_goals try simp only [mul_zero, zero_mul, add_zero, zero_add, sub_zero, zero_sub, mul_one, one_mul]
  all_goals try push_cast
  all_goals comp_eq

/-- Every partial derivative set by `FlightConditions` is the derivative of its output. -/
theorem partials (sea_level_density atmosphere_density atmosphere_speed_of_sound atmosphere_mach :
    ℝ) (h0 : 0 < sea_level_density) (h1 : 0 < atmosphere_density) :
    HasDerivAt (fun t => out_mission_velocity t atmosphere_mach)
      (J_mission_velocity__atmosphere_speed_of_sound atmosphere_mach) atmosphere_speed_of_sound ∧
    HasDerivAt (fun t => out_mission_velocity atmosphere_speed_of_sound t)
      (J_mission_velocity__atmosphere_mach atmosphere_speed_of_sound) atmosphere_mach ∧
    HasDerivAt (fun t => out_eas sea_level_density t atmosphere_speed_of_sound atmosphere_mach)
      (J_eas__atmosphere_density sea_level_density atmosphere_density atmosphere_speed_of_sound
      atmosphere_mach) atmosphere_density ∧
    HasDerivAt (fun t => out_eas sea_level_density atmosphere_density t atmosphere_mach)
      (J_eas__atmosphere_speed_of_sound sea_level_density atmosphere_density atmosphere_mach)
      atmosphere_speed_of_sound ∧
    HasDerivAt (fun t => out_eas sea_level_density atmosphere_density atmosphere_speed_of_sound t)
      (J_eas__atmosphere_mach sea_level_density atmosphere_density atmosphere_speed_of_sound)
      atmosphere_mach ∧
    HasDerivAt (fun t => out_atmosphere_dynamic_pressure t atmosphere_speed_of_sound atmosphere_mach)
      (J_atmosphere_dynamic_pressure__atmosphere_density atmosphere_speed_of_sound
      atmosphere_mach) atmosphere_density ∧
    HasDerivAt (fun t => out_atmosphere_dynamic_pressure atmosphere_density t atmosphere_mach)
      (J_atmosphere_dynamic_pressure__atmosphere_speed_of_sound atmosphere_density
      atmosphere_speed_of_sound atmosphere_mach) atmosphere_speed_of_sound ∧
    HasDerivAt (fun t => out_atmosphere_dynamic_pressure atmosphere_density atmosphere_speed_of_sound
      t) (J_atmosphere_dynamic_pressure__atmosphere_mach atmosphere_density
      atmosphere_speed_of_sound atmosphere_mach) atmosphere_mach :=
  ⟨d_mission_velocity__atmosphere_speed_of_sound _ _, d_mission_velocity__atmosphere_mach _ _,
    d_eas__atmosphere_density _ _ _ _ h0 h1, d_eas__atmosphere_speed_of_sound _ _ _ _ h0 h1,
    d_eas__atmosphere_mach _ _ _ _ h0 h1, d_atmosphere_dynamic_pressure__atmosphere_density _ _ _,
    d_atmosphere_dynamic_pressure__atmosphere_speed_of_sound _ _ _,
    d_atmosphere_dynamic_pressure__atmosphere_mach _ _ _⟩

example : ∃ sea_level_density atmosphere_density atmosphere_speed_of_sound atmosphere_mach : ℝ,
      0 < sea_level_density ∧
      0 < atmosphere_density :=
  ⟨1, 1, 0, 0, by comp_example, by comp_example⟩

end Verif.Comp.AtmosphereFlightConditions.FlightConditions_mach

