import Verif.Comp.GeometryGaspBasedStrut
import Verif.Comp.GeometryFlopsBasedWettedAreaTotal
import Verif.Comp.MassGaspBasedFixed6
import Verif.Comp.MassGaspBasedDesignLoad
import Verif.Comp.MassGaspBasedFuel1
import Verif.Props.BwbVolume

/-! Entries of the declared derivatives that the translation of the components left open: each is
proved here or refuted. -/

namespace Verif.OpenEntries
open Real Verif.BwbVolume

/-! ### The smooth step and its mirror image -/

theorem sig_mirror {x x0 mu : ℝ} (_hmu : 0 < mu) (h1 : -320 < (x - x0) / mu)
    (h2 : (x - x0) / mu < 320) : sigX x x0 (-mu) = 1 - sigX x x0 mu := by
  have e1 : (x - x0) / (-mu) = -((x - x0) / mu) := by rw [div_neg]
  have e2 : -(x - x0) / (-mu) = (x - x0) / mu := by rw [neg_div_neg_eq]
  have e3 : -(x - x0) / mu = -((x - x0) / mu) := by rw [neg_div]
  unfold sigX
  rw [if_pos (show (x - x0) / mu > -320 from h1), e1,
    if_pos (show -((x - x0) / mu) > -320 by linarith), e2, e3, exp_neg]
  have := exp_pos ((x - x0) / mu)
  field_simp
  ring

theorem dsig_mirror {x x0 mu : ℝ} (hmu : 0 < mu) (h1 : -320 < (x - x0) / mu)
    (h2 : (x - x0) / mu < 320) : dsigX x x0 (-mu) = -dsigX x x0 mu := by
  have e1 : (x - x0) / (-mu) = -((x - x0) / mu) := by rw [div_neg]
  have e2 : -(x - x0) / (-mu) = (x - x0) / mu := by rw [neg_div_neg_eq]
  have e3 : -(x - x0) / mu = -((x - x0) / mu) := by rw [neg_div]
  unfold dsigX
  rw [if_pos (show (x - x0) / mu > -320 from h1), e1,
    if_pos (show -((x - x0) / mu) > -320 by linarith), e2, e3, exp_neg]
  have := exp_pos ((x - x0) / mu)
  field_simp
  ring

theorem dsig_prod {x x0 mu : ℝ} (h1 : -320 < (x - x0) / mu) :
    dsigX x x0 mu = sigX x x0 mu * (1 - sigX x x0 mu) / mu := by
  unfold dsigX sigX
  rw [if_pos (show (x - x0) / mu > -320 from h1), if_pos (show (x - x0) / mu > -320 from h1)]
  have := exp_pos (-(x - x0) / mu)
  by_cases hm : mu = 0
  · subst hm; simp
  field_simp
  ring

theorem sig_pos {x x0 mu : ℝ} (h1 : -320 < (x - x0) / mu) : 0 < sigX x x0 mu := by
  unfold sigX; rw [if_pos (show (x - x0) / mu > -320 from h1)]
  have := exp_pos (-(x - x0) / mu)
  positivity

theorem sig_lt_half {x x0 mu : ℝ} (hmu : 0 < mu) (h : x < x0) : sigX x x0 mu < 1 / 2 := by
  unfold sigX
  split_ifs with h1
  · have : 1 < exp (-(x - x0) / mu) := by
      rw [one_lt_exp_iff]; exact div_pos (by linarith) hmu
    rw [div_lt_div_iff₀ (by positivity) (by norm_num)]
    linarith
  · norm_num

theorem sig_gt_half {x x0 mu : ℝ} (hmu : 0 < mu) (h : x0 < x) : 1 / 2 < sigX x x0 mu := by
  have h0 : 0 < (x - x0) / mu := div_pos (by linarith) hmu
  unfold sigX
  rw [if_pos (show (x - x0) / mu > -320 by linarith)]
  have : exp (-(x - x0) / mu) < 1 := by
    rw [exp_lt_one_iff, neg_div]; linarith
  have := exp_pos (-(x - x0) / mu)
  rw [div_lt_div_iff₀ (by norm_num) (by positivity)]
  linarith

theorem sig_centre (x0 mu : ℝ) : sigX x0 x0 mu = 1 / 2 := by
  unfold sigX; norm_num

/-- Between the cut-offs both steps move by the same amount in opposite directions. -/
theorem sig_moves {f : ℝ → ℝ} {f' x x0 mu : ℝ} (hf : HasDerivAt f f' x) (hmu : 0 < mu)
    (h1 : -320 < (f x - x0) / mu) (h2 : (f x - x0) / mu < 320) :
    HasDerivAt (fun t => sigX (f t) x0 mu) (f' * dsigX (f x) x0 mu) x ∧
      HasDerivAt (fun t => sigX (f t) x0 (-mu)) (-(f' * dsigX (f x) x0 mu)) x := by
  have e1 : (f x - x0) / (-mu) = -((f x - x0) / mu) := by rw [div_neg]
  refine ⟨deriv_as (hasDerivAt_sigX hf (hasDerivAt_const x x0) hmu.ne' h1.ne') (fun _ => rfl)
    (by ring), deriv_as (hasDerivAt_sigX hf (hasDerivAt_const x x0) (mu := -mu) (by linarith)
      (by rw [e1]; intro h; linarith)) (fun _ => rfl) ?_⟩
  rw [dsig_mirror hmu h1 h2]; ring

/-! ### The strut -/

open Verif.Comp.GeometryGaspBasedStrut in
/-- The length of the strut changes with the diameter of the fuselage as declared. -/
theorem strut_length_by_diameter (x w : ℝ) (hw : w ≠ 0) :
    HasDerivAt (fun t => StrutGeom.out_strut_length x t)
      (StrutGeom.J_strut_length__fuselage_avg_diameter x w) w := by
  have hp : 0 < (x / 2 - w / 2) ^ 2 + w ^ 2 := by positivity
  have h : HasDerivAt (fun t : ℝ => (x / 2 - t / 2) ^ 2 + t ^ 2)
      (2 * (x / 2 - w / 2) * (-(1 / 2)) + 2 * w) w := by
    have a : HasDerivAt (fun t : ℝ => x / 2 - t / 2) (-(1 / 2)) w :=
      deriv_as (((hasDerivAt_id w).div_const 2).const_sub (x / 2)) (fun _ => rfl) rfl
    exact deriv_as ((a.pow 2).add ((hasDerivAt_id w).pow 2)) (fun _ => rfl) (by simp)
  refine deriv_as (h.sqrt hp.ne') (fun _ => rfl) ?_
  simp only [StrutGeom.J_strut_length__fuselage_avg_diameter, StrutGeom.dlength_dwidth,
    StrutGeom.strut_y]
  have e : 5 * w ^ 2 - 4 * w * (x / 2) + 4 * (x / 2) ^ 2 = 2 ^ 2 * ((x / 2 - w / 2) ^ 2 + w ^ 2) := by
    ring
  rw [e, sqrt_mul (by norm_num), sqrt_sq (by norm_num)]
  have hs := sqrt_pos.2 hp
  generalize √((x / 2 - w / 2) ^ 2 + w ^ 2) = s at hs ⊢
  field_simp
  ring

open Verif.Comp.GeometryGaspBasedStrut in
/-- The chord of the strut changes with the diameter of the fuselage as declared. -/
theorem strut_chord_by_diameter (x area ratio w : ℝ) (hw : w ≠ 0) :
    HasDerivAt (fun t => StrutGeom.out_strut_chord x area ratio t)
      (StrutGeom.J_strut_chord__fuselage_avg_diameter x area ratio w) w := by
  have hp : 0 < (x / 2 - w / 2) ^ 2 + w ^ 2 := by positivity
  have hs := sqrt_pos.2 hp
  have h := strut_length_by_diameter x w hw
  have h2 := (hasDerivAt_const w ((1 / 2) * (area * ratio))).div h
    (by simp only [StrutGeom.out_strut_length]; exact hs.ne')
  refine deriv_as h2 (fun _ => rfl) ?_
  simp only [StrutGeom.J_strut_chord__fuselage_avg_diameter,
    StrutGeom.J_strut_length__fuselage_avg_diameter, StrutGeom.strut_length, StrutGeom.strut_y,
    StrutGeom.out_strut_length]
  generalize √((x / 2 - w / 2) ^ 2 + w ^ 2) = s at hs ⊢
  generalize StrutGeom.dlength_dwidth x w = d
  field_simp
  ring

example : (10 : ℝ) ≠ 0 := by norm_num

/-! ### The wetted area of the fuselage -/

open Verif.Comp.GeometryFlopsBasedWettedAreaTotal in
/-- The wetted area of the fuselage changes with its reference diameter as declared, for every
number of fuselages and every diameter other than 0, where the formula is switched on. -/
theorem fuselage_area_by_diameter (nf d c1 tc c2 sc htc loc c3 len vtc : ℝ) (hd : d ≠ 0) :
    HasDerivAt (fun t => FuselageWettedArea.out_fuselage_wetted_area nf t c1 tc c2 sc htc loc c3
        len vtc)
      (FuselageWettedArea.J_fuselage_wetted_area__fuselage_ref_diameter nf d sc len) d := by
  by_cases hn : 0 < nf
  · rcases lt_or_gt_of_ne hd with hneg | hpos
    · have e : (fun t => FuselageWettedArea.out_fuselage_wetted_area nf t c1 tc c2 sc htc loc c3
          len vtc) =ᶠ[nhds d] fun _ => 0 := by
        filter_upwards [Iio_mem_nhds hneg] with t ht
        have ht' : t < 0 := ht
        simp [FuselageWettedArea.out_fuselage_wetted_area, FuselageWettedArea.wetted_area_2,
          not_lt.2 ht'.le]
      have e2 : FuselageWettedArea.J_fuselage_wetted_area__fuselage_ref_diameter nf d sc len = 0 := by
        simp [FuselageWettedArea.J_fuselage_wetted_area__fuselage_ref_diameter, not_lt.2 hneg.le]
      rw [e2]
      exact (hasDerivAt_const _ _).congr_of_eventuallyEq e
    · have e : (fun t => FuselageWettedArea.out_fuselage_wetted_area nf t c1 tc c2 sc htc loc c3
          len vtc) =ᶠ[nhds d] fun t => sc * (π * len) * t + (-(sc * π * (17 / 10))) * t ^ 2 +
            sc * (-(2 * FuselageWettedArea.adjustment c1 tc) -
              2 * FuselageWettedArea.adjustment_2 c2 htc * (1 - loc) -
              FuselageWettedArea.adjustment_3 c3 vtc) := by
        filter_upwards [Ioi_mem_nhds hpos] with t ht
        have ht' : 0 < t := ht
        simp only [FuselageWettedArea.out_fuselage_wetted_area, FuselageWettedArea.wetted_area_2,
          FuselageWettedArea.wetted_area, hn, ht', and_self, if_true]
        field_simp
        ring
      refine HasDerivAt.congr_of_eventuallyEq ?_ e
      refine deriv_as ((((hasDerivAt_id d).const_mul _).add (((hasDerivAt_id d).pow 2).const_mul
        _)).add_const _) (fun _ => rfl) ?_
      simp [FuselageWettedArea.J_fuselage_wetted_area__fuselage_ref_diameter, hn, hpos]
      ring
  · simp only [FuselageWettedArea.out_fuselage_wetted_area, FuselageWettedArea.wetted_area_2,
      FuselageWettedArea.J_fuselage_wetted_area__fuselage_ref_diameter, hn, false_and, if_false]
    exact hasDerivAt_const _ _

example : (0 : ℝ) < 1 ∧ (13 : ℝ) ≠ 0 := by norm_num

/-! ### The factors of the wing of GASP, with smoothing -/

open Verif.Comp.MassGaspBasedFixed in
/-- The factor for the position of the engines changes with the Mach number as declared, between
the cut-offs of the steps at Mach -0.25 and 1.75. -/
theorem position_factor_by_mach (n m : ℝ) (h1 : -(1 / 4) < m) (h2 : m < 7 / 4) :
    HasDerivAt (fun t => MassParameters_smooth.out_propulsion_engine_position_factor n t)
      (MassParameters_smooth.J_propulsion_engine_position_factor__max_mach n m) m := by
  obtain ⟨a, b⟩ := sig_moves (f := fun t => t) (hasDerivAt_id m) (x0 := 3 / 4) (mu := 1 / 320)
    (by norm_num) (by rw [lt_div_iff₀ (by norm_num)]; linarith)
    (by rw [div_lt_iff₀ (by norm_num)]; linarith)
  simp only [MassParameters_smooth.out_propulsion_engine_position_factor,
    MassParameters_smooth.J_propulsion_engine_position_factor__max_mach]
  by_cases h4 : n = 4
  · simp only [MassParameters_smooth.c_eng_pos_5, h4, if_true]
    exact deriv_as ((b.const_mul (19 / 20)).add (a.const_mul (9 / 10))) (fun _ => rfl) (by ring)
  · by_cases h3 : n = 2 ∨ n = 3
    · simp only [MassParameters_smooth.c_eng_pos_5, h4, if_false,
        MassParameters_smooth.c_eng_pos_3, h3, if_true]
      exact deriv_as ((b.const_mul (49 / 50)).add (a.const_mul (19 / 20))) (fun _ => rfl) (by ring)
    · simp only [MassParameters_smooth.c_eng_pos_5, h4, if_false,
        MassParameters_smooth.c_eng_pos_3, h3]
      exact deriv_as (b.add (a.const_mul (21 / 20))) (fun _ => rfl) (by ring)

example : -(1 / 4) < (0.8 : ℝ) ∧ (0.8 : ℝ) < 7 / 4 := by norm_num

open Verif.Comp.MassGaspBasedFixed in
/-- The slope of the factor for the position of the gear, between the cut-offs: one hundredth of
the declared one. -/
theorem gear_factor_slope (g : ℝ) (h1 : -(1 / 200) < g) (h2 : g < 3 / 200) :
    HasDerivAt (fun t => MassParameters_smooth.out_c_gear_loc t)
      (MassParameters_smooth.J_c_gear_loc__landinggear_main_gear_location g / 100) g := by
  obtain ⟨a, b⟩ := sig_moves (f := fun t => t) (hasDerivAt_id g) (x0 := 1 / 200)
    (mu := 1 / 32000) (by norm_num) (by rw [lt_div_iff₀ (by norm_num)]; linarith)
    (by rw [div_lt_iff₀ (by norm_num)]; linarith)
  simp only [MassParameters_smooth.out_c_gear_loc,
    MassParameters_smooth.J_c_gear_loc__landinggear_main_gear_location]
  exact deriv_as ((b.const_mul (19 / 20)).add a) (fun _ => rfl) (by ring)

open Verif.Comp.MassGaspBasedFixed in
/-- So the declared derivative of that factor is wrong at every position of the gear between the
cut-offs. -/
theorem gear_factor_violated (g : ℝ) (h1 : -(1 / 200) < g) (h2 : g < 3 / 200) :
    ¬ HasDerivAt (fun t => MassParameters_smooth.out_c_gear_loc t)
      (MassParameters_smooth.J_c_gear_loc__landinggear_main_gear_location g) g := by
  intro h
  have e := h.unique (gear_factor_slope g h1 h2)
  have hc : -320 < (g - 1 / 200) / (1 / 32000 : ℝ) := by
    rw [lt_div_iff₀ (by norm_num)]; linarith
  have hc2 : (g - 1 / 200) / (1 / 32000 : ℝ) < 320 := by
    rw [div_lt_iff₀ (by norm_num)]; linarith
  have hp := sig_pos hc
  have hq : 0 < sigX g (1 / 200) (-(1 / 32000)) :=
    sig_pos (by rw [div_neg]; linarith)
  rw [sig_mirror (by norm_num) hc hc2] at hq
  have hd : 0 < dsigX g (1 / 200) (1 / 32000) := by
    rw [dsig_prod hc]; positivity
  simp only [MassParameters_smooth.J_c_gear_loc__landinggear_main_gear_location] at e
  linarith

example : -(1 / 200) < (0 : ℝ) ∧ (0 : ℝ) < 3 / 200 := by norm_num

/-! ### The speeds and the density ratio of the design loads of GASP, with smoothing -/

section Loads
open Verif.Comp.MassGaspBasedDesignLoad

/-- The Mach number before the cap is the airspeed times the declared factor. -/
theorem mach_linear (h v : ℝ) : LoadParameters_smooth.max_mach_5 h v =
    v * LoadParameters_smooth.dmax_mach_dmax_airspeed_2 h := by
  unfold LoadParameters_smooth.max_mach_5 LoadParameters_smooth.dmax_mach_dmax_airspeed_2
    LoadParameters_smooth.max_mach_3 LoadParameters_smooth.dmax_mach_dmax_airspeed
    LoadParameters_smooth.max_mach LoadParameters_smooth.max_mach_2
    LoadParameters_smooth.max_mach_4
  split_ifs <;> ring

/-- The capped Mach number changes with the airspeed as declared, at every altitude, while the Mach
number before the cap lies between the cut-offs -1.98 and 3.78. -/
theorem mach_by_airspeed (h v : ℝ) (h1 : -(99 / 50) < LoadParameters_smooth.max_mach_5 h v)
    (h2 : LoadParameters_smooth.max_mach_5 h v < 189 / 50) :
    HasDerivAt (fun t => LoadParameters_smooth.out_max_mach h t)
      (LoadParameters_smooth.J_max_mach__max_airspeed h v) v := by
  have hm : HasDerivAt (fun t => LoadParameters_smooth.max_mach_5 h t)
      (LoadParameters_smooth.dmax_mach_dmax_airspeed_2 h) v :=
    deriv_as ((hasDerivAt_id v).mul_const _) (fun t => mach_linear h t) (by simp)
  obtain ⟨a, b⟩ := sig_moves (hm.div_const (9 / 10)) (x0 := 1) (mu := 1 / 100)
    (by norm_num) (by rw [lt_div_iff₀ (by norm_num)]; linarith)
    (by rw [div_lt_iff₀ (by norm_num)]; linarith)
  simp only [LoadParameters_smooth.out_max_mach, LoadParameters_smooth.J_max_mach__max_airspeed]
  refine deriv_as ((hm.mul b).add (a.const_mul (9 / 10))) (fun _ => rfl) ?_
  simp only [LoadParameters_smooth.dmax_mach_dmax_airspeed_3]
  ring

example : -(99 / 50) < LoadParameters_smooth.max_mach_5 20000 400 ∧
    LoadParameters_smooth.max_mach_5 20000 400 < 189 / 50 := by
  norm_num [LoadParameters_smooth.max_mach_5, LoadParameters_smooth.max_mach_3,
    LoadParameters_smooth.max_mach]

/-- The density ratio before its bounds changes with the airspeed as declared. -/
theorem ratio_by_airspeed (h v : ℝ) (h1 : -(99 / 50) < LoadParameters_smooth.max_mach_5 h v)
    (h2 : LoadParameters_smooth.max_mach_5 h v < 189 / 50) (hv : 0 < v)
    (hm : 0 < LoadParameters_smooth.max_mach_6 h v) :
    HasDerivAt (fun t => LoadParameters_smooth.density_ratio h t)
      (LoadParameters_smooth.ddensity_ratio_dmax_airspeed h v) v := by
  have hd := mach_by_airspeed h v h1 h2
  simp only [LoadParameters_smooth.out_max_mach,
    LoadParameters_smooth.J_max_mach__max_airspeed] at hd
  have hq : HasDerivAt (fun t => t / ((6617 / 10) * LoadParameters_smooth.max_mach_6 h t))
      (((6617 / 10) * LoadParameters_smooth.max_mach_6 h v - v * ((6617 / 10) *
        LoadParameters_smooth.dmax_mach_dmax_airspeed_3 h v)) /
        ((6617 / 10) * LoadParameters_smooth.max_mach_6 h v) ^ 2) v :=
    deriv_as ((hasDerivAt_id v).div (hd.const_mul (6617 / 10)) (by positivity)) (fun _ => rfl)
      (by simp)
  have hp : 0 < v / ((6617 / 10) * LoadParameters_smooth.max_mach_6 h v) := by positivity
  refine deriv_as (hq.rpow_const (p := 161949 / 100000) (Or.inl hp.ne')) (fun _ => rfl) ?_
  have e : (161949 / 100000 : ℝ) - 1 = 61949 / 100000 := by norm_num
  rw [e]
  show _ = _ / _ * _ * _
  unfold LoadParameters_smooth.ddensity_ratio_dmax_airspeed
  show 161949 / 100000 * (v / (6617 / 10 * LoadParameters_smooth.max_mach_6 h v)) ^
    (61949 / 100000 : ℝ) * _ = _
  ring

/-- The point where the Mach number before the cap is the cap, 0.9. -/
theorem at_cap (h : ℝ) (hh : h ≤ 22500) :
    LoadParameters_smooth.max_mach_5 h (437697 / 1000) = 9 / 10 ∧
    LoadParameters_smooth.max_mach_6 h (437697 / 1000) = 9 / 10 ∧
    LoadParameters_smooth.dmax_mach_dmax_airspeed_3 h (437697 / 1000) = 50 / 48633 := by
  have a : LoadParameters_smooth.max_mach_5 h (437697 / 1000) = 9 / 10 := by
    simp only [LoadParameters_smooth.max_mach_5, LoadParameters_smooth.max_mach_3,
      LoadParameters_smooth.max_mach, if_neg (show ¬ (36000 < h) by linarith),
      if_neg (show ¬ (22500 < h ∧ h ≤ 36000) from fun x => by linarith [x.1])]
    norm_num
  have b : LoadParameters_smooth.dmax_mach_dmax_airspeed_2 h = 100 / 48633 := by
    simp only [LoadParameters_smooth.dmax_mach_dmax_airspeed_2,
      LoadParameters_smooth.dmax_mach_dmax_airspeed, if_neg (show ¬ (36000 < h) by linarith),
      if_neg (show ¬ (22500 < h ∧ h ≤ 36000) from fun x => by linarith [x.1])]
  have c : (9 / 10 : ℝ) / (9 / 10) = 1 := by norm_num
  refine ⟨a, ?_, ?_⟩
  · simp only [LoadParameters_smooth.max_mach_6]
    rw [a, c, sig_centre, sig_centre]; norm_num
  · simp only [LoadParameters_smooth.dmax_mach_dmax_airspeed_3]
    rw [a, b, c, sig_centre]; ring

/-- At that point the density ratio lies between 0.53281 and 1 and grows with the airspeed. -/
theorem ratio_at_cap (h : ℝ) (hh : h ≤ 22500) :
    53281 / 100000 < LoadParameters_smooth.density_ratio h (437697 / 1000) ∧
    LoadParameters_smooth.density_ratio h (437697 / 1000) < 1 ∧
    0 < LoadParameters_smooth.ddensity_ratio_dmax_airspeed h (437697 / 1000) := by
  obtain ⟨-, b, c⟩ := at_cap h hh
  have hq : (437697 / 1000 : ℝ) / (6617 / 10 * (9 / 10)) = 48633 / 66170 := by norm_num
  have e : LoadParameters_smooth.density_ratio h (437697 / 1000) =
      (48633 / 66170 : ℝ) ^ (161949 / 100000 : ℝ) := by
    simp only [LoadParameters_smooth.density_ratio]; rw [b, hq]
  have e1 : LoadParameters_smooth.max_mach_1 h (437697 / 1000) = 9 / 10 := b
  rw [e]
  refine ⟨?_, ?_, ?_⟩
  · calc (53281 / 100000 : ℝ) < (48633 / 66170 : ℝ) ^ (2 : ℝ) := by
          rw [show (2 : ℝ) = ((2 : ℕ) : ℝ) by norm_num, rpow_natCast]; norm_num
      _ ≤ _ := rpow_le_rpow_of_exponent_ge (by norm_num) (by norm_num) (by norm_num)
  · exact rpow_lt_one (by norm_num) (by norm_num) (by norm_num)
  · simp only [LoadParameters_smooth.ddensity_ratio_dmax_airspeed]
    rw [e1, c, hq]
    have := rpow_pos_of_pos (show (0 : ℝ) < 48633 / 66170 by norm_num) (61949 / 100000)
    have e2 : ((6617 / 10 * (9 / 10) : ℝ) - 437697 / 1000 * (6617 / 10 * (50 / 48633))) /
      (6617 / 10 * (9 / 10)) ^ 2 = 5 / 5955.3 := by norm_num
    rw [e2]
    positivity

/-- The slope of `V9`: the two terms of the product rule are added. -/
theorem v9_slope (h vc v : ℝ) (h1 : -(99 / 50) < LoadParameters_smooth.max_mach_5 h v)
    (h2 : LoadParameters_smooth.max_mach_5 h v < 189 / 50) (hv : 0 < v)
    (hm : 0 < LoadParameters_smooth.max_mach_6 h v)
    (hr : LoadParameters_smooth.density_ratio h v < 21 / 5) :
    HasDerivAt (fun t => LoadParameters_smooth.out_v9 h vc t)
      (vc * LoadParameters_smooth.dsigf h v * (-LoadParameters_smooth.ddensity_ratio_dmax_airspeed h v) +
        ((6617 / 10) * LoadParameters_smooth.dmax_mach_dmax_airspeed_3 h v *
            LoadParameters_smooth.sigf h v +
          (6617 / 10) * LoadParameters_smooth.max_mach_6 h v * LoadParameters_smooth.dsigf h v *
            LoadParameters_smooth.ddensity_ratio_dmax_airspeed h v)) v := by
  have hd := mach_by_airspeed h v h1 h2
  simp only [LoadParameters_smooth.out_max_mach,
    LoadParameters_smooth.J_max_mach__max_airspeed] at hd
  have hp : 0 < LoadParameters_smooth.density_ratio h v := by
    simp only [LoadParameters_smooth.density_ratio]; positivity
  obtain ⟨a, b⟩ := sig_moves (ratio_by_airspeed h v h1 h2 hv hm) (x0 := 1) (mu := 1 / 100)
    (by norm_num) (by rw [lt_div_iff₀ (by norm_num)]; linarith)
    (by rw [div_lt_iff₀ (by norm_num)]; linarith)
  refine deriv_as ((b.const_mul vc).add ((hd.const_mul (6617 / 10)).mul a)) (fun _ => rfl) ?_
  show _ = vc * -(_ * LoadParameters_smooth.dsigf h v) +
    ((6617 / 10) * _ * LoadParameters_smooth.sigf h v +
      (6617 / 10) * LoadParameters_smooth.max_mach_6 h v * (_ * LoadParameters_smooth.dsigf h v))
  ring

/-- The declared derivative of `V9` by the airspeed is wrong: it multiplies those two terms. Seen
at 437.697 kn for every design altitude up to 22500 ft and every cruise speed `vel_c`. -/
theorem v9_violated (h vc : ℝ) (hh : h ≤ 22500) :
    ¬ HasDerivAt (fun t => LoadParameters_smooth.out_v9 h vc t)
      (LoadParameters_smooth.J_v9__max_airspeed h vc (437697 / 1000)) (437697 / 1000) := by
  intro hJ
  obtain ⟨a, b, c⟩ := at_cap h hh
  obtain ⟨r1, r2, r3⟩ := ratio_at_cap h hh
  have e := hJ.unique (v9_slope h vc (437697 / 1000) (by rw [a]; norm_num) (by rw [a]; norm_num)
    (by norm_num) (by rw [b]; norm_num) (by linarith))
  have hc : -320 < (LoadParameters_smooth.density_ratio h (437697 / 1000) - 1) / (1 / 100 : ℝ) := by
    rw [lt_div_iff₀ (by norm_num)]; linarith
  have hs : 0 < LoadParameters_smooth.sigf h (437697 / 1000) := sig_pos hc
  have hs2 : LoadParameters_smooth.sigf h (437697 / 1000) < 1 / 2 := sig_lt_half (by norm_num) r2
  have hds : LoadParameters_smooth.dsigf h (437697 / 1000) =
      LoadParameters_smooth.sigf h (437697 / 1000) *
        (1 - LoadParameters_smooth.sigf h (437697 / 1000)) / (1 / 100) := dsig_prod hc
  have hdp : 0 < LoadParameters_smooth.dsigf h (437697 / 1000) := by
    rw [hds]; have : 0 < 1 - LoadParameters_smooth.sigf h (437697 / 1000) := by linarith
    positivity
  have e1 : LoadParameters_smooth.max_mach_1 h (437697 / 1000) = 9 / 10 := b
  have e2 : LoadParameters_smooth.sigf_2 h (437697 / 1000) =
    LoadParameters_smooth.sigf h (437697 / 1000) := rfl
  simp only [LoadParameters_smooth.J_v9__max_airspeed, LoadParameters_smooth.dv9_dmax_airspeed] at e
  rw [e1, e2, b, c] at e
  generalize LoadParameters_smooth.sigf h (437697 / 1000) = S at *
  generalize LoadParameters_smooth.dsigf h (437697 / 1000) = D at *
  generalize LoadParameters_smooth.ddensity_ratio_dmax_airspeed h (437697 / 1000) = R at *
  have hDR : 0 < D * R := mul_pos hdp r3
  nlinarith [mul_pos hs hDR]

example : (20000 : ℝ) ≤ 22500 := by norm_num

/-- The slope of the bounded density ratio of the structural categories below 3. -/
theorem bounded_slope (f : ℝ → ℝ) (f' v k : ℝ) (hk : 0 < k) (hf : HasDerivAt f f' v)
    (h0 : 0 < f v) (h1 : f v < 1) (h2 : f v < 4 * k) :
    HasDerivAt (fun t => k * sigX (f t / k) 1 (-(1 / 100)) +
        f t * sigX (f t / k) 1 (1 / 100) * sigX (f t) 1 (-(1 / 100)) + sigX (f t) 1 (1 / 100))
      (k * dsigX (f v / k) 1 (1 / 100) * (-f') / k +
        f' * sigX (f v / k) 1 (1 / 100) * sigX (f v) 1 (-(1 / 100)) +
        f v * (dsigX (f v / k) 1 (1 / 100) * f' / k * sigX (f v) 1 (-(1 / 100)) +
          sigX (f v / k) 1 (1 / 100) * dsigX (f v) 1 (1 / 100) * (-f')) +
        dsigX (f v) 1 (1 / 100) * f') v := by
  have hfk : 0 < f v / k := by positivity
  have hfk2 : f v / k < 4 := by rw [div_lt_iff₀ hk]; linarith
  obtain ⟨a, b⟩ := sig_moves (hf.div_const k) (x0 := 1) (mu := 1 / 100)
    (by norm_num) (by rw [lt_div_iff₀ (by norm_num)]; linarith)
    (by rw [div_lt_iff₀ (by norm_num)]; linarith)
  obtain ⟨c, d⟩ := sig_moves hf (x0 := 1) (mu := 1 / 100)
    (by norm_num) (by rw [lt_div_iff₀ (by norm_num)]; linarith)
    (by rw [div_lt_iff₀ (by norm_num)]; linarith)
  refine deriv_as (((b.const_mul k).add ((hf.mul a).mul d)).add c) (fun _ => rfl) ?_
  simp only [Pi.mul_apply]
  ring

/-- The declared derivative of the density ratio is wrong below category 3: the step down from 1 is
replaced by the step up. -/
theorem ratio_low_violated (h cat : ℝ) (hh : h ≤ 22500) (hc : cat < 3) :
    ¬ HasDerivAt (fun t => LoadParameters_smooth.out_density_ratio h cat t)
      (LoadParameters_smooth.J_density_ratio__max_airspeed h cat (437697 / 1000))
      (437697 / 1000) := by
  intro hJ
  obtain ⟨a, b, c⟩ := at_cap h hh
  obtain ⟨r1, r2, r3⟩ := ratio_at_cap h hh
  have hr := ratio_by_airspeed h (437697 / 1000) (by rw [a]; norm_num) (by rw [a]; norm_num)
    (by norm_num) (by rw [b]; norm_num)
  simp only [LoadParameters_smooth.out_density_ratio, LoadParameters_smooth.density_ratio_4,
    LoadParameters_smooth.J_density_ratio__max_airspeed,
    LoadParameters_smooth.ddensity_ratio_dmax_airspeed_4, if_pos hc] at hJ
  have e := hJ.unique (bounded_slope _ _ _ (341 / 500) (by norm_num) hr (by linarith) r2
    (by linarith))
  have hcut : -320 < (LoadParameters_smooth.density_ratio h (437697 / 1000) - 1) / (1 / 100 : ℝ) := by
    rw [lt_div_iff₀ (by norm_num)]; linarith
  have hcut2 : (LoadParameters_smooth.density_ratio h (437697 / 1000) - 1) / (1 / 100 : ℝ) < 320 := by
    rw [div_lt_iff₀ (by norm_num)]; linarith
  have hs2 : sigX (LoadParameters_smooth.density_ratio h (437697 / 1000)) 1 (1 / 100) < 1 / 2 :=
    sig_lt_half (by norm_num) r2
  have hmir := sig_mirror (by norm_num) hcut hcut2
  have hk : 0 < sigX (LoadParameters_smooth.density_ratio h (437697 / 1000) / (341 / 500)) 1
      (1 / 100) := sig_pos (by rw [lt_div_iff₀ (by norm_num)]; linarith)
  simp only [LoadParameters_smooth.ddensity_ratio_dmax_airspeed_2, LoadParameters_smooth.sigf_2,
    LoadParameters_smooth.sige_2, LoadParameters_smooth.dsigf] at e
  rw [show LoadParameters_smooth.density_ratio_5 h (437697 / 1000) =
    LoadParameters_smooth.density_ratio h (437697 / 1000) from rfl, hmir] at e
  generalize LoadParameters_smooth.ddensity_ratio_dmax_airspeed h (437697 / 1000) = R at *
  generalize LoadParameters_smooth.density_ratio h (437697 / 1000) = r at *
  generalize sigX r 1 (1 / 100) = S at *
  generalize sigX (r / (341 / 500)) 1 (1 / 100) = K at *
  have : 0 < R * K := mul_pos r3 hk
  nlinarith [mul_pos this (show 0 < 1 - 2 * S by linarith)]

/-- The declared derivative of the density ratio is wrong from category 3 on as well: there the
change of the step down from 1 is written with the wrong steps. -/
theorem ratio_high_violated (h cat : ℝ) (hh : h ≤ 22500) (hc : 3 ≤ cat) :
    ¬ HasDerivAt (fun t => LoadParameters_smooth.out_density_ratio h cat t)
      (LoadParameters_smooth.J_density_ratio__max_airspeed h cat (437697 / 1000))
      (437697 / 1000) := by
  intro hJ
  obtain ⟨a, b, c⟩ := at_cap h hh
  obtain ⟨r1, r2, r3⟩ := ratio_at_cap h hh
  have hr := ratio_by_airspeed h (437697 / 1000) (by rw [a]; norm_num) (by rw [a]; norm_num)
    (by norm_num) (by rw [b]; norm_num)
  simp only [LoadParameters_smooth.out_density_ratio, LoadParameters_smooth.density_ratio_4,
    LoadParameters_smooth.J_density_ratio__max_airspeed,
    LoadParameters_smooth.ddensity_ratio_dmax_airspeed_4, if_neg (not_lt.2 hc)] at hJ
  have e := hJ.unique (bounded_slope _ _ _ (53281 / 100000) (by norm_num) hr (by linarith) r2
    (by linarith))
  have hcut : -320 < (LoadParameters_smooth.density_ratio h (437697 / 1000) - 1) / (1 / 100 : ℝ) := by
    rw [lt_div_iff₀ (by norm_num)]; linarith
  have hcut2 : (LoadParameters_smooth.density_ratio h (437697 / 1000) - 1) / (1 / 100 : ℝ) < 320 := by
    rw [div_lt_iff₀ (by norm_num)]; linarith
  have hs := sig_pos hcut
  have hs2 : sigX (LoadParameters_smooth.density_ratio h (437697 / 1000)) 1 (1 / 100) < 1 / 2 :=
    sig_lt_half (by norm_num) r2
  have hmir := sig_mirror (by norm_num) hcut hcut2
  have hds := dsig_prod hcut
  have hk : 1 / 2 < sigX (LoadParameters_smooth.density_ratio h (437697 / 1000) /
      (53281 / 100000)) 1 (1 / 100) := sig_gt_half (by norm_num) (by
        rw [lt_div_iff₀ (by norm_num)]; linarith)
  have hk2 := sig_mirror (x := LoadParameters_smooth.density_ratio h (437697 / 1000) /
      (53281 / 100000)) (x0 := 1) (mu := 1 / 100) (by norm_num)
    (by rw [lt_div_iff₀ (by norm_num)]; linarith) (by rw [div_lt_iff₀ (by norm_num)]; linarith)
  simp only [LoadParameters_smooth.ddensity_ratio_dmax_airspeed_3, LoadParameters_smooth.sigf_2,
    LoadParameters_smooth.sige_2, LoadParameters_smooth.dsigf] at e
  rw [show LoadParameters_smooth.density_ratio_5 h (437697 / 1000) =
    LoadParameters_smooth.density_ratio h (437697 / 1000) from rfl, hmir, hk2, hds] at e
  generalize LoadParameters_smooth.ddensity_ratio_dmax_airspeed h (437697 / 1000) = R at *
  generalize LoadParameters_smooth.density_ratio h (437697 / 1000) = r at *
  generalize sigX r 1 (1 / 100) = S at *
  generalize sigX (r / (53281 / 100000)) 1 (1 / 100) = K at *
  have hrRS : 0 < r * R * S := mul_pos (mul_pos (by linarith) r3) hs
  have e' : r * R * S * ((1 - K) - K * (1 - S) * 100) = 0 := by linarith
  have : (1 - K) - K * (1 - S) * 100 < 0 := by nlinarith
  rcases mul_eq_zero.1 e' with h' | h' <;> linarith

example : (20000 : ℝ) ≤ 22500 ∧ (0 : ℝ) < 3 ∧ (3 : ℝ) ≤ 3 := by norm_num

end Loads

/-! ### The largest fuel mass in the wing of GASP, with smoothing -/

section Fuel
open Verif.Comp.MassGaspBasedFuel

theorem dsig_even {d mu : ℝ} (hmu : 0 < mu) (h1 : -320 < d / mu) (h2 : d / mu < 320) :
    dsigX (-d) 0 mu = dsigX d 0 mu := by
  have a : -320 < (d - 0) / mu := by simpa using h1
  have b : (d - 0) / mu < 320 := by simpa using h2
  have e := dsig_mirror hmu a b
  have f : dsigX d 0 (-mu) = -dsigX (-d) 0 mu := by
    unfold dsigX
    simp only [sub_zero, neg_neg, neg_div, div_neg]
    split_ifs <;> ring
  linarith

/-- The slope of the smooth minimum of two weights `O` and `W` that are at most 320/95 apart. -/
theorem min_slope {O W : ℝ → ℝ} {O' W' x : ℝ} (hO : HasDerivAt O O' x) (hW : HasDerivAt W W' x)
    (h1 : -(320 / 95) < W x - O x) (h2 : W x - O x < 320 / 95) :
    HasDerivAt (fun t => O t * sigX (W t - O t) 0 (1 / 95) + W t * sigX (O t - W t) 0 (1 / 95))
      (O' * sigX (W x - O x) 0 (1 / 95) + W' * sigX (O x - W x) 0 (1 / 95) +
        (O x - W x) * (W' - O') * dsigX (W x - O x) 0 (1 / 95)) x := by
  obtain ⟨a, -⟩ := sig_moves (hW.sub hO) (x0 := 0) (mu := 1 / 95) (by norm_num)
    (by rw [lt_div_iff₀ (by norm_num)]; simp only [Pi.sub_apply]; linarith)
    (by rw [div_lt_iff₀ (by norm_num)]; simp only [Pi.sub_apply]; linarith)
  obtain ⟨b, -⟩ := sig_moves (hO.sub hW) (x0 := 0) (mu := 1 / 95) (by norm_num)
    (by rw [lt_div_iff₀ (by norm_num)]; simp only [Pi.sub_apply]; linarith)
    (by rw [div_lt_iff₀ (by norm_num)]; simp only [Pi.sub_apply]; linarith)
  have e : dsigX (O x - W x) 0 (1 / 95) = dsigX (W x - O x) 0 (1 / 95) := by
    have := dsig_even (d := W x - O x) (mu := 1 / 95) (by norm_num)
      (by rw [lt_div_iff₀ (by norm_num)]; linarith) (by rw [div_lt_iff₀ (by norm_num)]; linarith)
    rwa [neg_sub] at this
  refine deriv_as ((hO.mul a).add (hW.mul b)) (fun _ => rfl) ?_
  simp only [Pi.sub_apply, e]
  ring

theorem dsig_near_pos {d : ℝ} (h1 : -(320 / 95) < d) (h2 : d < 320 / 95) :
    0 < dsigX d 0 (1 / 95) := by
  have hc : -320 < (d - 0) / (1 / 95 : ℝ) := by rw [lt_div_iff₀ (by norm_num)]; linarith
  have hc2 : (d - 0) / (1 / 95 : ℝ) < 320 := by rw [div_lt_iff₀ (by norm_num)]; linarith
  have hp := sig_pos hc
  have hq : 0 < sigX d 0 (-(1 / 95)) := sig_pos (by rw [div_neg]; linarith)
  rw [sig_mirror (by norm_num) hc hc2] at hq
  rw [dsig_prod hc]; positivity

theorem dsig_flip {a b : ℝ} (h1 : -(320 / 95) < a - b) (h2 : a - b < 320 / 95) :
    dsigX (b - a) 0 (1 / 95) = dsigX (a - b) 0 (1 / 95) := by
  have := dsig_even (d := a - b) (mu := 1 / 95) (by norm_num)
    (by rw [lt_div_iff₀ (by norm_num)]; linarith) (by rw [div_lt_iff₀ (by norm_num)]; linarith)
  rwa [neg_sub] at this

variable (ρ g V w : ℝ)

/-- The gap between the declared derivative and the slope of the largest fuel mass in the wing, by
the gross mass: twice the fuel allowed by the mass times the steepness. -/
theorem fuel_by_gross (h1 : -(320 / 95) < V * ρ - (g - w)) (h2 : V * ρ - (g - w) < 320 / 95) :
    HasDerivAt (fun t => FuelComponents_smooth.out_max_wingfuel_mass ρ t V w)
      (FuelComponents_smooth.J_max_wingfuel_mass__design_gross_mass ρ g V w -
        2 * (g - w) * dsigX (V * ρ - (g - w)) 0 (1 / 95)) g := by
  have hO : HasDerivAt (fun t : ℝ => t - w) 1 g := (hasDerivAt_id g).sub_const w
  refine deriv_as (min_slope hO (hasDerivAt_const g (V * ρ)) h1 h2) (fun _ => rfl) ?_
  simp only [FuelComponents_smooth.J_max_wingfuel_mass__design_gross_mass,
    FuelComponents_smooth.dmaxwfwt_dgtow, FuelComponents_smooth.oem_wingfuel_wt,
    FuelComponents_smooth.volume_wingfuel_wt]
  rw [dsig_flip h1 h2]
  ring

theorem fuel_by_operating (h1 : -(320 / 95) < V * ρ - (g - w)) (h2 : V * ρ - (g - w) < 320 / 95) :
    HasDerivAt (fun t => FuelComponents_smooth.out_max_wingfuel_mass ρ g V t)
      (FuelComponents_smooth.J_max_wingfuel_mass__operating_mass ρ g V w +
        2 * (g - w) * dsigX (V * ρ - (g - w)) 0 (1 / 95)) w := by
  have hO : HasDerivAt (fun t : ℝ => g - t) (-1) w := (hasDerivAt_id w).const_sub g
  refine deriv_as (min_slope hO (hasDerivAt_const w (V * ρ)) h1 h2) (fun _ => rfl) ?_
  simp only [FuelComponents_smooth.J_max_wingfuel_mass__operating_mass,
    FuelComponents_smooth.dmaxwfwt_doew, FuelComponents_smooth.oem_wingfuel_wt,
    FuelComponents_smooth.volume_wingfuel_wt]
  rw [dsig_flip h1 h2]
  ring

theorem fuel_by_volume (h1 : -(320 / 95) < V * ρ - (g - w)) (h2 : V * ρ - (g - w) < 320 / 95) :
    HasDerivAt (fun t => FuelComponents_smooth.out_max_wingfuel_mass ρ g t w)
      (FuelComponents_smooth.J_max_wingfuel_mass__fuel_wing_volume_geometric_max ρ g V w -
        2 * (V * ρ) * ρ * dsigX (V * ρ - (g - w)) 0 (1 / 95)) V := by
  have hW : HasDerivAt (fun t : ℝ => t * ρ) ρ V :=
    deriv_as ((hasDerivAt_id V).mul_const ρ) (fun _ => rfl) (by simp)
  refine deriv_as (min_slope (hasDerivAt_const V (g - w)) hW h1 h2) (fun _ => rfl) ?_
  simp only [FuelComponents_smooth.J_max_wingfuel_mass__fuel_wing_volume_geometric_max,
    FuelComponents_smooth.dmaxwfwt_dgeomfuelvol, FuelComponents_smooth.oem_wingfuel_wt,
    FuelComponents_smooth.volume_wingfuel_wt]
  rw [dsig_flip h1 h2]
  ring

theorem fuel_by_density (h1 : -(320 / 95) < V * ρ - (g - w)) (h2 : V * ρ - (g - w) < 320 / 95) :
    HasDerivAt (fun t => FuelComponents_smooth.out_max_wingfuel_mass t g V w)
      (FuelComponents_smooth.J_max_wingfuel_mass__fuel_density ρ g V w -
        2 * (V * ρ) * V * dsigX (V * ρ - (g - w)) 0 (1 / 95)) ρ := by
  have hW : HasDerivAt (fun t : ℝ => V * t) V ρ :=
    deriv_as ((hasDerivAt_id ρ).const_mul V) (fun _ => rfl) (by simp)
  refine deriv_as (min_slope (hasDerivAt_const ρ (g - w)) hW h1 h2) (fun _ => rfl) ?_
  simp only [FuelComponents_smooth.J_max_wingfuel_mass__fuel_density,
    FuelComponents_smooth.dmaxwfwt_drhofuel, FuelComponents_smooth.oem_wingfuel_wt,
    FuelComponents_smooth.volume_wingfuel_wt]
  rw [dsig_flip h1 h2]
  ring

/-- So all four declared derivatives of the largest fuel mass are wrong wherever the two weights are
within the band of the step and not zero. -/
theorem fuel_mass_violated (h1 : -(320 / 95) < V * ρ - (g - w)) (h2 : V * ρ - (g - w) < 320 / 95)
    (hO : g - w ≠ 0) (hV : V ≠ 0) (hρ : ρ ≠ 0) :
    (¬ HasDerivAt (fun t => FuelComponents_smooth.out_max_wingfuel_mass ρ t V w)
      (FuelComponents_smooth.J_max_wingfuel_mass__design_gross_mass ρ g V w) g) ∧
    (¬ HasDerivAt (fun t => FuelComponents_smooth.out_max_wingfuel_mass ρ g V t)
      (FuelComponents_smooth.J_max_wingfuel_mass__operating_mass ρ g V w) w) ∧
    (¬ HasDerivAt (fun t => FuelComponents_smooth.out_max_wingfuel_mass ρ g t w)
      (FuelComponents_smooth.J_max_wingfuel_mass__fuel_wing_volume_geometric_max ρ g V w) V) ∧
    ¬ HasDerivAt (fun t => FuelComponents_smooth.out_max_wingfuel_mass t g V w)
      (FuelComponents_smooth.J_max_wingfuel_mass__fuel_density ρ g V w) ρ := by
  have hd := (dsig_near_pos h1 h2).ne'
  have n1 : 2 * (g - w) * dsigX (V * ρ - (g - w)) 0 (1 / 95) ≠ 0 :=
    mul_ne_zero (mul_ne_zero two_ne_zero hO) hd
  have n2 : 2 * (V * ρ) * ρ * dsigX (V * ρ - (g - w)) 0 (1 / 95) ≠ 0 :=
    mul_ne_zero (mul_ne_zero (mul_ne_zero two_ne_zero (mul_ne_zero hV hρ)) hρ) hd
  have n3 : 2 * (V * ρ) * V * dsigX (V * ρ - (g - w)) 0 (1 / 95) ≠ 0 :=
    mul_ne_zero (mul_ne_zero (mul_ne_zero two_ne_zero (mul_ne_zero hV hρ)) hV) hd
  refine ⟨fun h => n1 ?_, fun h => n1 ?_, fun h => n2 ?_, fun h => n3 ?_⟩
  · linarith [h.unique (fuel_by_gross ρ g V w h1 h2)]
  · linarith [h.unique (fuel_by_operating ρ g V w h1 h2)]
  · linarith [h.unique (fuel_by_volume ρ g V w h1 h2)]
  · linarith [h.unique (fuel_by_density ρ g V w h1 h2)]

/-- And so are the four of the largest fuel volume of the structure. -/
theorem fuel_volume_violated (h1 : -(320 / 95) < V * ρ - (g - w))
    (h2 : V * ρ - (g - w) < 320 / 95) (hO : g - w ≠ 0) (hV : V ≠ 0) (hρ : ρ ≠ 0) :
    (¬ HasDerivAt (fun t => FuelComponents_smooth.out_fuel_wing_volume_structural_max ρ t V w)
      (FuelComponents_smooth.J_fuel_wing_volume_structural_max__design_gross_mass ρ g V w) g) ∧
    (¬ HasDerivAt (fun t => FuelComponents_smooth.out_fuel_wing_volume_structural_max ρ g V t)
      (FuelComponents_smooth.J_fuel_wing_volume_structural_max__operating_mass ρ g V w) w) ∧
    (¬ HasDerivAt (fun t => FuelComponents_smooth.out_fuel_wing_volume_structural_max ρ g t w)
      (FuelComponents_smooth.J_fuel_wing_volume_structural_max__fuel_wing_volume_geometric_max
        ρ g V w) V) ∧
    ¬ HasDerivAt (fun t => FuelComponents_smooth.out_fuel_wing_volume_structural_max t g V w)
      (FuelComponents_smooth.J_fuel_wing_volume_structural_max__fuel_density ρ g V w) ρ := by
  obtain ⟨a, b, c, d⟩ := fuel_mass_violated ρ g V w h1 h2 hO hV hρ
  refine ⟨fun h => a ?_, fun h => b ?_, fun h => c ?_, fun h => d ?_⟩
  · refine deriv_as (h.mul_const ρ) (fun t => ?_) ?_
    · simp only [FuelComponents_smooth.out_max_wingfuel_mass,
        FuelComponents_smooth.out_fuel_wing_volume_structural_max,
        FuelComponents_smooth.max_wingfuel_vol]
      field_simp
    · simp only [FuelComponents_smooth.J_max_wingfuel_mass__design_gross_mass,
        FuelComponents_smooth.J_fuel_wing_volume_structural_max__design_gross_mass]
      field_simp
  · refine deriv_as (h.mul_const ρ) (fun t => ?_) ?_
    · simp only [FuelComponents_smooth.out_max_wingfuel_mass,
        FuelComponents_smooth.out_fuel_wing_volume_structural_max,
        FuelComponents_smooth.max_wingfuel_vol]
      field_simp
    · simp only [FuelComponents_smooth.J_max_wingfuel_mass__operating_mass,
        FuelComponents_smooth.J_fuel_wing_volume_structural_max__operating_mass]
      field_simp
  · refine deriv_as (h.mul_const ρ) (fun t => ?_) ?_
    · simp only [FuelComponents_smooth.out_max_wingfuel_mass,
        FuelComponents_smooth.out_fuel_wing_volume_structural_max,
        FuelComponents_smooth.max_wingfuel_vol]
      field_simp
    · simp only [FuelComponents_smooth.J_max_wingfuel_mass__fuel_wing_volume_geometric_max,
        FuelComponents_smooth.J_fuel_wing_volume_structural_max__fuel_wing_volume_geometric_max]
      field_simp
  · have hm := h.mul (hasDerivAt_id ρ)
    have e : (fun t => FuelComponents_smooth.out_max_wingfuel_mass t g V w) =ᶠ[nhds ρ]
        fun t => FuelComponents_smooth.out_fuel_wing_volume_structural_max t g V w * t := by
      filter_upwards [isOpen_ne.mem_nhds hρ] with t ht
      have ht' : t ≠ 0 := ht
      simp only [FuelComponents_smooth.out_max_wingfuel_mass,
        FuelComponents_smooth.out_fuel_wing_volume_structural_max,
        FuelComponents_smooth.max_wingfuel_vol]
      field_simp
    refine HasDerivAt.congr_of_eventuallyEq ?_ e
    refine deriv_as hm (fun _ => rfl) ?_
    simp only [FuelComponents_smooth.J_max_wingfuel_mass__fuel_density, id,
      FuelComponents_smooth.J_fuel_wing_volume_structural_max__fuel_density,
      FuelComponents_smooth.out_fuel_wing_volume_structural_max,
      FuelComponents_smooth.max_wingfuel_vol]
    field_simp
    ring

example : -(320 / 95) < (400 : ℝ) * 50 - (60000 - 40000) ∧ (400 : ℝ) * 50 - (60000 - 40000) < 320 / 95 ∧
    (60000 : ℝ) - 40000 ≠ 0 := by norm_num

end Fuel

end Verif.OpenEntries
