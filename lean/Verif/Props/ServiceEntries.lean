import Verif.Comp.MassGaspBasedPassengerService
import Verif.Comp.MassFlopsBasedFurnishings
import Verif.Comp.MassFlopsBasedHydraulics
import Verif.Comp.AerodynamicsGaspBasedInterference
import Verif.Props.BwbVolume

/-! # The last entries left open: service, furnishings, hydraulics, interference

* `PassengerServiceMass` (aviary/subsystems/mass/gasp_based/passenger_service.py:71-103) sets the
  derivative by the service mass per passenger to zero up to 19 passengers, but the output uses it
  from 10 passengers on (lines 56-58).
* `BWBFurnishingsGroupMass` by the sweep, aviary/subsystems/mass/flops_based/furnishings.py:206.
* `TransportHydraulicsGroupMass` by the pressure: right up to the rounding of one constant,
  aviary/subsystems/mass/flops_based/hydraulics.py:100.
* `WingFuselageInterferenceMission` by Mach number, temperature and viscosity,
  aviary/subsystems/aerodynamics/gasp_based/interference.py:420-495. -/

set_option linter.all false

namespace Verif.ServiceEntries
open Real
open Verif.BwbVolume (deriv_as)

section service
open Verif.Comp.MassGaspBasedPassengerService.PassengerServiceMass

/-- the true derivative by the service mass per passenger -/
theorem service_slope (n s w c : ℝ) :
    HasDerivAt (fun y => out_crewpayload_passenger_service_mass n y w c) (if 9 < n then n else 0) s := by
  by_cases h : 9 < n
  · rw [if_pos h]
    refine deriv_as (((((hasDerivAt_id s).mul_const n).add_const (16 * num_lavatories_6 n)).add_const
      (water_wt_2 n w)).add_const (catering_wt_2 n c)) (fun y => ?_) (by ring)
    simp only [out_crewpayload_passenger_service_mass, service_wt_2, service_wt, if_pos h, id]
  · rw [if_neg h]
    refine deriv_as (hasDerivAt_const s ((0 + water_wt_2 n w) + catering_wt_2 n c)) (fun y => ?_) rfl
    simp only [out_crewpayload_passenger_service_mass, service_wt_2, if_neg h]

/-- the declared entry is right for at most 9 and for more than 19 passengers,
aviary/subsystems/mass/gasp_based/passenger_service.py:71-103 -/
theorem service_entry_partial (n s w c : ℝ) (h : n ≤ 9 ∨ 19 < n) :
    HasDerivAt (fun y => out_crewpayload_passenger_service_mass n y w c)
      (J_crewpayload_passenger_service_mass__crewpayload_passenger_service_mass_per_passenger n) s := by
  refine deriv_as (service_slope n s w c) (fun _ => rfl) ?_
  simp only [J_crewpayload_passenger_service_mass__crewpayload_passenger_service_mass_per_passenger]
  rcases h with h | h
  · rw [if_neg (by linarith), if_neg (by linarith)]
  · rw [if_pos h, if_pos (by linarith)]

/-- for 10 to 19 passengers it is wrong whatever the masses,
aviary/subsystems/mass/gasp_based/passenger_service.py:71-103 -/
theorem service_entry_violated (n s w c : ℝ) (h1 : 9 < n) (h2 : n ≤ 19) :
    ¬ HasDerivAt (fun y => out_crewpayload_passenger_service_mass n y w c)
      (J_crewpayload_passenger_service_mass__crewpayload_passenger_service_mass_per_passenger n) s := by
  intro hd
  have := hd.unique (service_slope n s w c)
  simp only [J_crewpayload_passenger_service_mass__crewpayload_passenger_service_mass_per_passenger,
    if_pos h1, if_neg (not_lt.mpr h2)] at this
  linarith

example : (9 : ℝ) < 12 ∧ (12 : ℝ) ≤ 19 := by norm_num

end service

section furnishings
open Verif.Comp.MassFlopsBasedFurnishings.BWBFurnishingsGroupMass_no_fuselagemilitarycargofloor

/-- the declared derivative by the sweep is right, aviary/subsystems/mass/flops_based/furnishings.py:206 -/
theorem furnishings_by_sweep (crew n1 n2 n3 k w h cabin bays x : ℝ) (hc : cos ((π / 180) * x) ≠ 0) :
    HasDerivAt (fun y => out_furnishings_mass crew n1 n2 n3 k w h cabin bays y)
      (J_furnishings_mass__bwb_passenger_leading_edge_sweep k w h x) x := by
  have h1 : HasDerivAt (fun y : ℝ => cos ((π / 180) * y)) (-sin ((π / 180) * x) * (π / 180)) x := by
    simpa using ((hasDerivAt_id x).const_mul (π / 180)).cos
  have h2 := ((((((h1.inv hc).const_add 1).const_mul w).mul_const h).const_add
    ((cabin / w) * (w + (h * bays)))).const_mul (13 / 5)).const_add (weight crew n1 n2 n3)
  refine deriv_as (h2.mul_const k) (fun y => ?_) ?_
  · simp only [out_furnishings_mass, weight_2, cos_, one_div, Pi.inv_apply]
  · have e : d2r x = (π / 180) * x := by simp only [d2r]; ring
    have hp := pi_pos.ne'
    simp only [J_furnishings_mass__bwb_passenger_leading_edge_sweep, tan_, cos__2, e, tan_eq_sin_div_cos]
    field_simp

example : cos ((π / 180) * 60) ≠ 0 := by
  have : (π / 180) * 60 = π / 3 := by ring
  rw [this, cos_pi_div_three]; norm_num

end furnishings

section hydraulics
open Verif.Comp.MassFlopsBasedHydraulics.TransportHydraulicsGroupMass

/-- the quotient of the exact constant and the one of the code,
aviary/subsystems/mass/flops_based/hydraulics.py:100-109 (the digits beyond the sixteenth are lost) -/
noncomputable def rounding : ℝ := (399 / 2000) * (3000 : ℝ) ^ ((7 / 20) : ℝ) / (3288026727706387 / 1000000000000000)

theorem root_bounds : (16481336980984397312 / 1000000000000000000 : ℝ) < (3000 : ℝ) ^ ((7 / 20) : ℝ) ∧
    (3000 : ℝ) ^ ((7 / 20) : ℝ) < 16481336980984397313 / 1000000000000000000 := by
  have hp : 0 < (3000 : ℝ) ^ ((7 / 20) : ℝ) := by positivity
  have e : ((3000 : ℝ) ^ ((7 / 20) : ℝ)) ^ 20 = 3000 ^ 7 := by
    rw [← rpow_natCast, ← rpow_mul (by norm_num)]
    norm_num
  constructor
  · refine lt_of_pow_lt_pow_left₀ 20 hp.le ?_
    rw [e]; norm_num
  · refine lt_of_pow_lt_pow_left₀ 20 (by norm_num) ?_
    rw [e]; norm_num

/-- the constant is off by less than two parts in ten to the sixteenth -/
theorem rounding_bounds : 1 < rounding ∧ rounding < 1 + 2 / 10 ^ 16 := by
  have := root_bounds
  unfold rounding
  constructor
  · rw [lt_div_iff₀ (by norm_num)]; linarith [this.1]
  · rw [div_lt_iff₀ (by norm_num)]; norm_num; linarith [this.2]

/-- the declared derivative by the pressure is right up to the rounding of the constant,
aviary/subsystems/mass/flops_based/hydraulics.py:100 -/
theorem hydraulics_by_pressure (nw nf m pl x k area vs : ℝ) (hx : 0 < x) :
    HasDerivAt (fun y => out_hydraulics_mass nw nf m pl y k area vs)
      (J_hydraulics_mass__hydraulics_system_pressure nw nf m pl x k area vs * rounding) x := by
  have h1 : HasDerivAt (fun y : ℝ => y ^ (-(7 / 20) : ℝ)) ((-(7 / 20)) * x ^ ((-(27 / 20)) : ℝ)) x := by
    refine deriv_as (hasDerivAt_rpow_const (p := (-(7 / 20) : ℝ)) (Or.inl hx.ne')) (fun _ => rfl) ?_
    norm_num
  have h2 := ((((h1.const_mul ((((57 / 100) * (pl + ((27 / 100) * area))) * ((1 + ((3 / 100) * nw)) +
    ((1 / 20) * nf))) * (3000 : ℝ) ^ ((7 / 20) : ℝ))).mul_const (1 + ((1 / 25) * vs))).mul_const
    (m ^ ((33 / 100) : ℝ))).mul_const k)
  have h3 := h2.congr_of_eventuallyEq (f₁ := fun y => out_hydraulics_mass nw nf m pl y k area vs)
    ((eventually_gt_nhds hx).mono fun y hy => by
    simp only [out_hydraulics_mass, if_neg (not_le.mpr hy)]
    rw [div_rpow (by norm_num) (le_of_lt hy), rpow_neg (le_of_lt hy)]
    ring)
  refine deriv_as h3 (fun _ => rfl) ?_
  simp only [J_hydraulics_mass__hydraulics_system_pressure, if_neg (not_le.mpr hx), rounding, term1, term2, term4, term5]
  ring

/-- without a hydraulic system the zero is right,
aviary/subsystems/mass/flops_based/hydraulics.py:83-91 -/
theorem hydraulics_none (nw nf m pl x k area vs : ℝ) (hx : x < 0) :
    HasDerivAt (fun y => out_hydraulics_mass nw nf m pl y k area vs)
      (J_hydraulics_mass__hydraulics_system_pressure nw nf m pl x k area vs) x := by
  simp only [J_hydraulics_mass__hydraulics_system_pressure, if_pos hx.le]
  refine (hasDerivAt_const x (0 : ℝ)).congr_of_eventuallyEq ((eventually_lt_nhds hx).mono fun y hy => ?_)
  simp only [out_hydraulics_mass, if_pos (le_of_lt hy)]

end hydraulics

section interference
open Verif.Comp.AerodynamicsGaspBasedInterference.WingFuselageInterferenceMission

/-- the Reynolds term through any of its inputs -/
theorem reynolds_chain {r : ℝ → ℝ} {t r' : ℝ} (hr : HasDerivAt r r' t) (c : ℝ) (hc : c ≠ 0) (h0 : r t ≠ 0)
    (h1 : log (r t * c) ≠ 0) :
    HasDerivAt (fun y => (((log (r y * c)) / (log 10)) / 7) ^ ((-(13 / 5)) : ℝ))
      ((((-(13 / 5)) * ((((log (r t * c)) / (log 10)) / 7) ^ ((-(18 / 5)) : ℝ))) / (((log 10) * (r t)) * 7)) * r') t := by
  have hl : log 10 ≠ 0 := (log_pos (by norm_num)).ne'
  have h2 := (((hr.mul_const c).log (mul_ne_zero h0 hc)).div_const (log 10)).div_const 7
  have hne : log (r t * c) / log 10 / 7 ≠ 0 := div_ne_zero (div_ne_zero h1 hl) (by norm_num)
  refine deriv_as (h2.rpow_const (p := (-(13 / 5) : ℝ)) (Or.inl hne)) (fun _ => rfl) ?_
  rw [show (-(13 / 5) : ℝ) - 1 = -(18 / 5) by norm_num]
  generalize (log (r t * c) / log 10 / 7) ^ (-(18 / 5) : ℝ) = z
  field_simp

/-- the skin friction factor by the Mach number -/
theorem cfin_slope (m : ℝ) : HasDerivAt cfin (dcfin_dem m) m := by
  have h0 : HasDerivAt (fun y : ℝ => 1 + (18 / 125) * y ^ 2) ((36 / 125) * m) m := by
    refine deriv_as (((hasDerivAt_pow 2 m).const_mul (18 / 125)).const_add 1) (fun _ => rfl) ?_
    norm_num; ring
  have hp : 0 < 1 + (18 / 125) * m ^ 2 := by positivity
  have h1 := h0.rpow_const (p := (-(13 / 20) : ℝ)) (Or.inl hp.ne')
  refine deriv_as (h1.const_mul ((91 / 200) / ((7 : ℝ) ^ ((129 / 50) : ℝ)))) (fun y => ?_) ?_
  · simp only [cfin]
    rw [rpow_neg (by positivity)]
    ring
  · simp only [dcfin_dem, cfin]
    rw [rpow_sub_one hp.ne', rpow_neg hp.le]
    ring

theorem reli_pos (g m temp nu : ℝ) (hg : 0 < g) (hm : 0 < m) (ht : 0 < temp) (hn : 0 < nu) :
    0 < reli g m temp nu := by
  have h1 := sqrt_pos.mpr (show 0 < ((7 / 5) * g) * (1333 / 25) by positivity)
  have h2 := sqrt_pos.mpr ht
  unfold reli
  positivity

/-- by the Mach number, aviary/subsystems/aerodynamics/gasp_based/interference.py:446 -/
theorem interference_by_mach (g ff c m temp nu a d : ℝ) (hg : 0 < g) (hm : 0 < m)
    (ht : 0 < temp) (hn : 0 < nu) (hc : 0 < c) (hl : log (reli g m temp nu * c) ≠ 0) :
    HasDerivAt (fun y => out_wing_fuselage_interference_flat_plate_equivalent g ff c y temp nu a d)
      (J_wing_fuselage_interference_flat_plate_equivalent__atmosphere_mach g ff c m temp nu a) m := by
  have hr : HasDerivAt (fun y => reli g y temp nu) (dreli_dem g temp nu) m := by
    refine deriv_as ((((hasDerivAt_id m).const_mul (√(((7 / 5) * g) * (1333 / 25)))).mul_const (√temp)).div_const nu)
      (fun _ => rfl) ?_
    simp only [dreli_dem]; ring
  have h1 := reynolds_chain hr c hc.ne' (reli_pos g m temp nu hg hm ht hn).ne' hl
  refine deriv_as (((((cfin_slope m).mul_const ff).mul h1).mul_const a).const_sub d) (fun _ => rfl) ?_
  simp only [J_wing_fuselage_interference_flat_plate_equivalent__atmosphere_mach]
  ring

/-- by the temperature, aviary/subsystems/aerodynamics/gasp_based/interference.py:460 -/
theorem interference_by_temperature (g ff c m temp nu a d : ℝ) (hg : 0 < g) (hm : 0 < m)
    (ht : 0 < temp) (hn : 0 < nu) (hc : 0 < c) (hl : log (reli g m temp nu * c) ≠ 0) :
    HasDerivAt (fun y => out_wing_fuselage_interference_flat_plate_equivalent g ff c m y nu a d)
      (J_wing_fuselage_interference_flat_plate_equivalent__atmosphere_temperature g ff c m temp nu a) temp := by
  have hr : HasDerivAt (fun y => reli g m y nu) ((((√(((7 / 5) * g) * (1333 / 25))) * m) * (1 / 2)) / (nu * √temp)) temp := by
    refine deriv_as (((hasDerivAt_sqrt ht.ne').const_mul ((√(((7 / 5) * g) * (1333 / 25))) * m)).div_const nu)
      (fun _ => rfl) ?_
    ring
  have h1 := reynolds_chain hr c hc.ne' (reli_pos g m temp nu hg hm ht hn).ne' hl
  refine deriv_as (((h1.const_mul (cfin m * ff)).mul_const a).const_sub d) (fun _ => rfl) ?_
  simp only [J_wing_fuselage_interference_flat_plate_equivalent__atmosphere_temperature]
  ring

/-- by the viscosity, aviary/subsystems/aerodynamics/gasp_based/interference.py:476 -/
theorem interference_by_viscosity (g ff c m temp nu a d : ℝ) (hg : 0 < g) (hm : 0 < m)
    (ht : 0 < temp) (hn : 0 < nu) (hc : 0 < c) (hl : log (reli g m temp nu * c) ≠ 0) :
    HasDerivAt (fun y => out_wing_fuselage_interference_flat_plate_equivalent g ff c m temp y a d)
      (J_wing_fuselage_interference_flat_plate_equivalent__atmosphere_kinematic_viscosity g ff c m temp nu a) nu := by
  have hr : HasDerivAt (fun y => reli g m temp y) (-((((√(((7 / 5) * g) * (1333 / 25))) * m) * √temp) / nu ^ 2)) nu := by
    refine deriv_as ((hasDerivAt_inv hn.ne').const_mul (((√(((7 / 5) * g) * (1333 / 25))) * m) * √temp))
      (fun y => by simp only [reli]; ring) ?_
    ring
  have h1 := reynolds_chain hr c hc.ne' (reli_pos g m temp nu hg hm ht hn).ne' hl
  refine deriv_as (((h1.const_mul (cfin m * ff)).mul_const a).const_sub d) (fun _ => rfl) ?_
  simp only [J_wing_fuselage_interference_flat_plate_equivalent__atmosphere_kinematic_viscosity]
  ring

example (g m temp nu : ℝ) (hg : 0 < g) (hm : 0 < m) (ht : 0 < temp) (hn : 0 < nu) :
    ∃ c, 0 < c ∧ log (reli g m temp nu * c) ≠ 0 := by
  have h := reli_pos g m temp nu hg hm ht hn
  refine ⟨exp 1 / reli g m temp nu, by positivity, ?_⟩
  rw [mul_div_cancel₀ _ h.ne', log_exp]
  norm_num

end interference

end Verif.ServiceEntries
