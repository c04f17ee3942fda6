import Verif.Comp.GeometryGaspBasedFuselage1
import Verif.Comp.GeometryGaspBasedFuselage2
import Verif.Comp.MassFlopsBasedFuelSystem
import Mathlib.Analysis.SpecialFunctions.Trigonometric.ArctanDeriv
import Mathlib.Analysis.SpecialFunctions.Trigonometric.Bounds
import Mathlib.Tactic.LinearCombination

/-!
# Component partials decided by hand

Entries for which the translation finds a difference from the derivative, and one component whose entries are right
only for a sweep below 90 degrees.
-/

namespace Verif.Findings
open Real

/-! ## Hydraulic diameter of a blended wing body, aviary/subsystems/geometry/gasp_based/fuselage.py:414 -/

section Hydraulic
open Comp.GeometryGaspBasedFuselage.BWBFuselageParameters1

/-- The entry for the aisle width is the derivative exactly when there is no additional pressurized width. -/
theorem hydraulic_aisle_iff (ns n sw x p r : ℝ) (hn : 0 < n) (hr : 0 < r) (hp : 0 ≤ p)
    (hc : 0 < cabin_width ns n sw x) :
    HasDerivAt (fun t => out_fuselage_hydraulic_diameter ns n sw t p r)
      (J_fuselage_hydraulic_diameter__fuselage_aisle_width ns n sw x p r) x ↔ p = 0 := by
  have hw : HasDerivAt (fun t => cabin_width ns n sw t) (n / 12) x := by
    unfold cabin_width
    have := (((hasDerivAt_id x).const_mul n).const_add (ns * sw)).div_const 12 |>.add_const 1
    refine this.congr_deriv ?_
    ring
  have e : (fun t => out_fuselage_hydraulic_diameter ns n sw t p r) =
      fun t => sqrt ((cabin_width ns n sw t + p) * (cabin_width ns n sw t * r)) := by
    funext t
    simp only [out_fuselage_hydraulic_diameter, hydraulic_diameter, fuselage_cross_area, body_width, cabin_height]
    congr 1
    field_simp
  have hpos : 0 < (cabin_width ns n sw x + p) * (cabin_width ns n sw x * r) := by positivity
  have hd := ((hw.add_const p).mul (hw.mul_const r)).sqrt hpos.ne'
  rw [e]
  have hs : 0 < sqrt ((cabin_width ns n sw x + p) * (cabin_width ns n sw x * r)) := sqrt_pos.2 hpos
  have hJ : J_fuselage_hydraulic_diameter__fuselage_aisle_width ns n sw x p r =
      cabin_width ns n sw x * n * r / sqrt ((cabin_width ns n sw x + p) * (cabin_width ns n sw x * r)) / 12 := by
    simp only [J_fuselage_hydraulic_diameter__fuselage_aisle_width, hydraulic_diameter_2, body_width]
    rw [mul_assoc (cabin_width ns n sw x + p)]
  rw [hJ]
  generalize sqrt ((cabin_width ns n sw x + p) * (cabin_width ns n sw x * r)) = s at *
  generalize cabin_width ns n sw x = c at *
  constructor
  · intro h
    have u := h.unique hd
    field_simp at u
    nlinarith
  · rintro rfl
    refine hd.congr_deriv ?_
    field_simp
    ring

example : (0 : ℝ) < 3 ∧ (0 : ℝ) < 0.26 ∧ (0 : ℝ) ≤ 2 ∧ 0 < cabin_width 18 3 21 22 := by
  refine ⟨by norm_num, by norm_num, by norm_num, ?_⟩
  norm_num [cabin_width]

end Hydraulic

/-! ## Wetted area of a blended wing body, aviary/subsystems/geometry/gasp_based/fuselage.py:1101 -/

section Wetted
open Comp.GeometryGaspBasedFuselage.BWBFuselageSize

/-- The entry for the additional pressurized width is wrong whenever the aft body is at least one foot long. -/
theorem wetted_additional_width_violated (al d p k sa h fl na : ℝ) (hal : 1 ≤ al) (hh : 0 < h) (hp : 0 < p) (hk : k ≠ 0) :
    ¬ HasDerivAt (fun t => out_fuselage_wetted_area al d t k sa h fl na)
      (J_fuselage_wetted_area__fuselage_pressurized_width_additional al p k h) p := by
  intro hJ
  have hpos : 0 < al ^ 2 + (p / 2) ^ 2 := by positivity
  have hda : HasDerivAt (fun t => diag_a_a al t) (p / 4 / diag_a_a al p) p := by
    unfold diag_a_a
    have := ((((hasDerivAt_id p).div_const 2).pow 2).const_add (al ^ 2)).sqrt hpos.ne'
    refine this.congr_deriv ?_
    have h0 : 0 < sqrt (al ^ 2 + (p / 2) ^ 2) := sqrt_pos.2 hpos
    simp only [id, Pi.pow_apply]
    generalize sqrt (al ^ 2 + (p / 2) ^ 2) = q at *
    norm_num
    field_simp
    try norm_num
  have hd : HasDerivAt (fun t => out_fuselage_wetted_area al d t k sa h fl na)
      ((-diag_a_c al h + h * (p / 4 / diag_a_a al p)) * k) p := by
    simp only [out_fuselage_wetted_area, fuselage_wetted_area_2, fuselage_wetted_area, aftbody_surface_area, body_width_pass]
    have := ((((((hasDerivAt_id p).const_sub d).const_add d).mul_const (diag_a_c al h)).add (hda.const_mul h)).const_add
      (forebody_surface_area d h fl + cabin_surface_area d sa fl na)).mul_const k
    refine this.congr_deriv ?_
    ring
  have u := hJ.unique hd
  simp only [J_fuselage_wetted_area__fuselage_pressurized_width_additional, d_aft_d_additional_width] at u
  have u' := mul_right_cancel₀ hk u
  have hc : 1 < diag_a_c al h := by
    unfold diag_a_c
    rw [lt_sqrt (by norm_num)]
    nlinarith [sq_nonneg (h / 2), mul_pos hh hh]
  have ha : 1 < diag_a_a al p := by
    unfold diag_a_a
    rw [lt_sqrt (by norm_num)]
    nlinarith [sq_nonneg (p / 2), mul_pos hp hp]
  generalize diag_a_c al h = c at *
  generalize diag_a_a al p = a at *
  have : h * p * (1 / 4) * c = h * (p / 4 / a) := by linarith
  have ha0 : a ≠ 0 := by positivity
  field_simp at this
  nlinarith [mul_pos hh hp]

example : (1 : ℝ) ≤ 20 ∧ (0 : ℝ) < 10 ∧ (0 : ℝ) < 4 ∧ (1 : ℝ) ≠ 0 := by norm_num

end Wetted

/-! ## Fuel system of a transport, aviary/subsystems/mass/flops_based/fuel_system.py -/

section FuelSystem
open Comp.MassFlopsBasedFuelSystem.TransportFuelSystemMass

/-- aviary/subsystems/mass/flops_based/distributed_prop.py:6-20 -/
noncomputable def countFactor (n : ℕ) : ℝ := if 4 < n then 4 + 2 * arctan ((n - 4) / 3) else n

theorem countFactor_lt {n : ℕ} (h : 4 < n) : 0 < countFactor n ∧ countFactor n < n := by
  rw [countFactor, if_pos h]
  have h5 : (4 : ℝ) < n := by exact_mod_cast h
  have hx : 0 < ((n : ℝ) - 4) / 3 := by apply div_pos <;> linarith
  have h0 : 0 < arctan (((n : ℝ) - 4) / 3) := by rw [← arctan_zero]; exact arctan_strictMono hx
  have h1 : arctan (((n : ℝ) - 4) / 3) < ((n : ℝ) - 4) / 3 := by
    have := Real.lt_tan h0 (arctan_lt_pi_div_two _)
    rwa [tan_arctan] at this
  constructor <;> linarith

/-- The factor grows with the number of engines and stays below `4 + π`. -/
theorem countFactor_mono {m n : ℕ} (h : m < n) : countFactor m < countFactor n := by
  unfold countFactor
  have hc : (m : ℝ) < n := by exact_mod_cast h
  split_ifs with h1 h2 h2
  · have := arctan_strictMono (show ((m : ℝ) - 4) / 3 < (n - 4) / 3 by linarith)
    linarith
  · omega
  · have h3 : (m : ℝ) ≤ 4 := by exact_mod_cast not_lt.1 h1
    have h4 : (4 : ℝ) < n := by exact_mod_cast h2
    have : 0 < arctan (((n : ℝ) - 4) / 3) := by rw [← arctan_zero]; exact arctan_strictMono (by apply div_pos <;> linarith)
    linarith
  · exact hc

theorem countFactor_bound (n : ℕ) : countFactor n < 4 + π := by
  unfold countFactor
  have := pi_pos
  split_ifs with h
  · have := arctan_lt_pi_div_two (((n : ℝ) - 4) / 3)
    linarith
  · have : (n : ℝ) ≤ 4 := by exact_mod_cast not_lt.1 h
    linarith

/-- Up to four engines the entry for the fuel capacity is the derivative. -/
theorem fuel_capacity_partial (n : ℕ) (hn : n ≤ 4) (M k x : ℝ) (hx : 0 < x) :
    HasDerivAt (fun t => out_fuel_fuel_system_mass (countFactor n) M k t)
      (J_fuel_fuel_system_mass__fuel_max_capacity_mass n M k x) x := by
  rw [countFactor, if_neg (by omega)]
  have := ((((hasDerivAt_rpow_const (x := x) (p := 29 / 50) (Or.inl hx.ne')).const_mul (107 / 100)).mul_const
    ((n : ℝ) ^ (43 / 100 : ℝ))).mul_const (M ^ (17 / 50 : ℝ))).mul_const k
  unfold out_fuel_fuel_system_mass J_fuel_fuel_system_mass__fuel_max_capacity_mass
  refine this.congr_deriv ?_
  rw [show (29 / 50 - 1 : ℝ) = -(21 / 50) by norm_num]
  ring

/-- For more than four engines it uses the number of engines in place of the factor and is too large. -/
theorem fuel_capacity_violated (n : ℕ) (hn : 4 < n) (M k x : ℝ) (hM : 0 < M) (hk : 0 < k) (hx : 0 < x) :
    ¬ HasDerivAt (fun t => out_fuel_fuel_system_mass (countFactor n) M k t)
      (J_fuel_fuel_system_mass__fuel_max_capacity_mass n M k x) x := by
  intro h
  have e := ((((hasDerivAt_rpow_const (x := x) (p := 29 / 50) (Or.inl hx.ne')).const_mul (107 / 100)).mul_const
    (countFactor n ^ (43 / 100 : ℝ))).mul_const (M ^ (17 / 50 : ℝ))).mul_const k
  have u := h.unique e
  obtain ⟨c0, c1⟩ := countFactor_lt hn
  have hlt : countFactor n ^ (43 / 100 : ℝ) < (n : ℝ) ^ (43 / 100 : ℝ) := rpow_lt_rpow c0.le c1 (by norm_num)
  simp only [J_fuel_fuel_system_mass__fuel_max_capacity_mass] at u
  rw [show (29 / 50 - 1 : ℝ) = -(21 / 50) by norm_num] at u
  have hq : 0 < x ^ (-(21 / 50) : ℝ) * M ^ (17 / 50 : ℝ) * k := by positivity
  have : x ^ (-(21 / 50) : ℝ) * M ^ (17 / 50 : ℝ) * k * ((n : ℝ) ^ (43 / 100 : ℝ) - countFactor n ^ (43 / 100 : ℝ)) = 0 := by
    linear_combination (5000 / 3103) * u
  rcases mul_eq_zero.1 this with h' | h'
  · exact hq.ne' h'
  · linarith

example : 4 < 6 ∧ (0 : ℝ) < 0.8 ∧ (0 : ℝ) < 1 ∧ (0 : ℝ) < 40000 := by norm_num

end FuelSystem

/-! ## Lift curve slope at cruise, aviary/subsystems/mass/gasp_based/design_load.py -/

section LiftCurve

/-- `LiftCurveSlopeAtCruise.compute`, aviary/subsystems/mass/gasp_based/design_load.py:606-625; arguments aspect ratio, sweep in radians, Mach number. -/
noncomputable def slope (A s M : ℝ) : ℝ :=
  π * A / (1 + sqrt (1 + (A / (2 * cos s)) ^ 2 * (1 - (M * cos s) ^ 2)))

/-- `c1` and `c2` of `compute_partials`, aviary/subsystems/mass/gasp_based/design_load.py:632-633. -/
noncomputable def c1 (A s M : ℝ) : ℝ := sqrt (A ^ 2 * (-M ^ 2 * cos s ^ 2 + 1) + 4 * cos s ^ 2)
noncomputable def c2 (A s M : ℝ) : ℝ := 2 * cos s + c1 A s M

/-- The three entries of `compute_partials`, aviary/subsystems/mass/gasp_based/design_load.py:635-649. -/
noncomputable def slopeA (A s M : ℝ) : ℝ := 4 * π * cos s ^ 2 / (c1 A s M * c2 A s M)
noncomputable def slopeM (A s M : ℝ) : ℝ := 2 * π * A ^ 3 * M * cos s ^ 3 / (c1 A s M * c2 A s M ^ 2)
noncomputable def slopeS (A s M : ℝ) : ℝ :=
  -π * A * (-8 * cos s ^ 3 * sin s + 4 * cos s ^ 2 * sin (2 * s) + A ^ 2 * sin (2 * s)) / (cos s * c1 A s M * c2 A s M ^ 2)

/-- For a sweep below 90 degrees the slope is `2 π A cos s / c2`. -/
theorem slope_eq (A s M : ℝ) (hc : 0 < cos s) : slope A s M = 2 * π * A * cos s / c2 A s M := by
  have e : sqrt (1 + (A / (2 * cos s)) ^ 2 * (1 - (M * cos s) ^ 2)) = c1 A s M / (2 * cos s) := by
    rw [c1, eq_div_iff (by positivity), ← sqrt_sq (show 0 ≤ 2 * cos s by positivity), ← sqrt_mul' _ (by positivity)]
    congr 1
    rw [sqrt_sq (by positivity)]
    field_simp
    ring
  rw [slope, e, c2]
  have : 0 ≤ c1 A s M := sqrt_nonneg _
  have h2 : 2 * cos s + c1 A s M ≠ 0 := by positivity
  have h1 : 1 + c1 A s M / (2 * cos s) ≠ 0 := by positivity
  field_simp

variable (A s M : ℝ)

theorem c1_sq (h : 0 < A ^ 2 * (-M ^ 2 * cos s ^ 2 + 1) + 4 * cos s ^ 2) :
    c1 A s M ^ 2 = A ^ 2 * (-M ^ 2 * cos s ^ 2 + 1) + 4 * cos s ^ 2 := sq_sqrt h.le

/-- Entry for the aspect ratio. -/
theorem slopeA_partial (hc : 0 < cos s) (h : 0 < A ^ 2 * (-M ^ 2 * cos s ^ 2 + 1) + 4 * cos s ^ 2) :
    HasDerivAt (fun t => slope t s M) (slopeA A s M) A := by
  have hp : 0 < c1 A s M := sqrt_pos.2 h
  have h1 : HasDerivAt (fun t => c1 t s M) (A * (-M ^ 2 * cos s ^ 2 + 1) / c1 A s M) A := by
    unfold c1
    have := (((hasDerivAt_pow 2 A).mul_const (-M ^ 2 * cos s ^ 2 + 1)).add_const (4 * cos s ^ 2)).sqrt h.ne'
    refine this.congr_deriv ?_
    have h0 : sqrt (A ^ 2 * (-M ^ 2 * cos s ^ 2 + 1) + 4 * cos s ^ 2) ≠ 0 := hp.ne'
    generalize sqrt (A ^ 2 * (-M ^ 2 * cos s ^ 2 + 1) + 4 * cos s ^ 2) = q at *
    norm_num
    field_simp
  have h2 : HasDerivAt (fun t => c2 t s M) _ A := h1.const_add (2 * cos s)
  have hq : c2 A s M ≠ 0 := by unfold c2; positivity
  have e : (fun t => slope t s M) = fun t => 2 * π * t * cos s / c2 t s M := by
    funext t; exact slope_eq t s M hc
  rw [e]
  have := (((hasDerivAt_id A).const_mul (2 * π)).mul_const (cos s)).div h2 hq
  refine this.congr_deriv ?_
  simp only [id, slopeA]
  have hsq := c1_sq A s M h
  have hc2 : c2 A s M = 2 * cos s + c1 A s M := rfl
  field_simp
  rw [hc2]
  generalize c1 A s M = c at *
  linear_combination 2 * hsq

/-- Entry for the Mach number. -/
theorem slopeM_partial (hc : 0 < cos s) (h : 0 < A ^ 2 * (-M ^ 2 * cos s ^ 2 + 1) + 4 * cos s ^ 2) :
    HasDerivAt (fun t => slope A s t) (slopeM A s M) M := by
  have hp : 0 < c1 A s M := sqrt_pos.2 h
  have h1 : HasDerivAt (fun t => c1 A s t) (-(A ^ 2 * M * cos s ^ 2) / c1 A s M) M := by
    unfold c1
    have := ((((((hasDerivAt_pow 2 M).neg).mul_const (cos s ^ 2)).add_const 1).const_mul (A ^ 2)).add_const
      (4 * cos s ^ 2)).sqrt h.ne'
    refine this.congr_deriv ?_
    have : sqrt (A ^ 2 * (-M ^ 2 * cos s ^ 2 + 1) + 4 * cos s ^ 2) ≠ 0 := hp.ne'
    field_simp
    norm_num
    try ring
  have h2 : HasDerivAt (fun t => c2 A s t) _ M := h1.const_add (2 * cos s)
  have hq : c2 A s M ≠ 0 := by unfold c2; positivity
  have e : (fun t => slope A s t) = fun t => 2 * π * A * cos s / c2 A s t := by
    funext t; exact slope_eq A s t hc
  rw [e]
  have := (hasDerivAt_const M (2 * π * A * cos s)).div h2 hq
  refine this.congr_deriv ?_
  simp only [slopeM]
  field_simp
  ring

/-- Entry for the sweep. -/
theorem slopeS_partial (hc : 0 < cos s) (h : 0 < A ^ 2 * (-M ^ 2 * cos s ^ 2 + 1) + 4 * cos s ^ 2) :
    HasDerivAt (fun t => slope A t M) (slopeS A s M) s := by
  have hp : 0 < c1 A s M := sqrt_pos.2 h
  have hcos2 : HasDerivAt (fun t => cos t ^ 2) (2 * cos s * -sin s) s := by
    refine ((hasDerivAt_cos s).pow 2).congr_deriv ?_
    simp
  have h1 : HasDerivAt (fun t => c1 A t M) ((A ^ 2 * M ^ 2 - 4) * cos s * sin s / c1 A s M) s := by
    unfold c1
    have := ((((hcos2.const_mul (-M ^ 2)).add_const 1).const_mul (A ^ 2)).add (hcos2.const_mul 4)).sqrt h.ne'
    refine this.congr_deriv ?_
    have h0 : sqrt (A ^ 2 * (-M ^ 2 * cos s ^ 2 + 1) + 4 * cos s ^ 2) ≠ 0 := hp.ne'
    simp only [Pi.add_apply]
    generalize sqrt (A ^ 2 * (-M ^ 2 * cos s ^ 2 + 1) + 4 * cos s ^ 2) = q at *
    field_simp
    ring
  have h2 : HasDerivAt (fun t => c2 A t M) _ s := ((hasDerivAt_cos s).const_mul 2).add h1
  have hq : c2 A s M ≠ 0 := by unfold c2; positivity
  have e : (fun t => slope A t M) =ᶠ[nhds s] fun t => 2 * π * A * cos t / c2 A t M := by
    filter_upwards [continuous_cos.continuousAt.eventually (lt_mem_nhds hc)] with t ht using slope_eq A t M ht
  refine HasDerivAt.congr_of_eventuallyEq ?_ e
  have := (((hasDerivAt_cos s).const_mul (2 * π * A))).div h2 hq
  refine this.congr_deriv ?_
  simp only [slopeS]
  have hsq := c1_sq A s M h
  have hc2 : c2 A s M = 2 * cos s + c1 A s M := rfl
  rw [sin_two_mul]
  field_simp
  rw [hc2]
  generalize c1 A s M = c at *
  linear_combination (-2 * A * sin s) * hsq

example : 0 < cos (0 : ℝ) ∧ (0 : ℝ) < 10 ^ 2 * (-(8 / 10) ^ 2 * cos 0 ^ 2 + 1) + 4 * cos 0 ^ 2 := by
  norm_num [cos_zero]

end LiftCurve

end Verif.Findings
