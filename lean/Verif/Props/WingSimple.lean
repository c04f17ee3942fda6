import Verif.Model.WingSimple
import Mathlib.Analysis.SpecialFunctions.Pow.Deriv
import Mathlib.Analysis.SpecialFunctions.Trigonometric.ArctanDeriv
import Mathlib.Tactic.LinearCombination
import Mathlib.Tactic.FieldSimp

/-!
# Properties of the bending factor of a simple wing (C131)
-/

noncomputable section
namespace Verif.WingSimple

/-- `slam` is the sine of the angle whose tangent is `tlam`. -/
theorem slam_eq (t : ℝ) : slam t = Real.sin (Real.arctan t) := by
  rw [slam, Real.sin_arctan, Real.sqrt_eq_rpow]
  norm_num

theorem one_sub_slam (t : ℝ) : 1 - slam t ^ 2 = 1 / (1 + t ^ 2) := by
  have h : (0:ℝ) < 1 + t ^ 2 := by positivity
  have e : ((1 + t ^ 2) ^ (0.5 : ℝ)) ^ 2 = 1 + t ^ 2 := by
    rw [← Real.rpow_natCast, ← Real.rpow_mul h.le]
    norm_num
  rw [slam, div_pow, e]
  field_simp
  ring

theorem dslam_eq (t : ℝ) : dslam t = 1 / (1 + t ^ 2) ^ (1.5 : ℝ) := by
  have h : (0:ℝ) < 1 + t ^ 2 := by positivity
  have e : (1 + t ^ 2) ^ (1.5 : ℝ) = (1 + t ^ 2) * (1 + t ^ 2) ^ (0.5 : ℝ) := by
    rw [show (1.5 : ℝ) = 1 + 0.5 by norm_num, Real.rpow_add h, Real.rpow_one]
  have h5 : (1 + t ^ 2) ^ (0.5 : ℝ) ≠ 0 := (Real.rpow_pos_of_pos h _).ne'
  rw [dslam, e]
  field_simp
  ring

theorem hasDerivAt_slam (t : ℝ) : HasDerivAt slam (dslam t) t := by
  have h : (0:ℝ) < 1 + t ^ 2 := by positivity
  have e : (1 + t ^ 2) ^ (1.5 : ℝ) = (1 + t ^ 2) * (1 + t ^ 2) ^ (0.5 : ℝ) := by
    rw [show (1.5 : ℝ) = 1 + 0.5 by norm_num, Real.rpow_add h, Real.rpow_one]
  have h5 : (1 + t ^ 2) ^ (0.5 : ℝ) ≠ 0 := (Real.rpow_pos_of_pos h _).ne'
  have e2 : (1 + t ^ 2) ^ (0.5 - 1 : ℝ) = (1 + t ^ 2) ^ (0.5 : ℝ) / (1 + t ^ 2) := by
    rw [Real.rpow_sub h, Real.rpow_one]
  have e3 : ((1 + t ^ 2) ^ (0.5 : ℝ)) ^ 2 = 1 + t ^ 2 := by
    rw [← Real.rpow_natCast, ← Real.rpow_mul h.le]
    norm_num
  have d : HasDerivAt (fun t : ℝ => 1 + t ^ 2) (2 * t) t := by
    simpa using (hasDerivAt_pow 2 t).const_add 1
  have d2 := (hasDerivAt_id t).div (d.rpow_const (p := 0.5) (Or.inl h.ne')) h5
  refine d2.congr_deriv ?_
  rw [dslam_eq, e]
  simp only [id, e2]
  rw [e3]
  field_simp
  rw [e3]
  ring

theorem hasDerivAt_tlam_sweep (i : In) (hc : Real.cos (Real.pi / 180 * i.sweep) ≠ 0) :
    HasDerivAt (fun x => tlam { i with sweep := x }) (dtSweep i) i.sweep := by
  have d1 : HasDerivAt (fun x : ℝ => Real.pi / 180 * x) (Real.pi / 180) i.sweep := by
    simpa using (hasDerivAt_id i.sweep).const_mul (Real.pi / 180)
  have d2 := (HasDerivAt.comp (h₂ := Real.tan) i.sweep (Real.hasDerivAt_tan hc) d1).sub_const (2 * (1 - i.tr) / (i.ar * (1 + i.tr)))
  refine d2.congr_deriv ?_
  simp only [dtSweep]
  ring

theorem hasDerivAt_tlam_ar (i : In) (h1 : i.ar ≠ 0) (h2 : 1 + i.tr ≠ 0) :
    HasDerivAt (fun x => tlam { i with ar := x }) (dtAr i) i.ar := by
  have d1 : HasDerivAt (fun x : ℝ => x * (1 + i.tr)) (1 + i.tr) i.ar := by
    simpa using (hasDerivAt_id i.ar).mul_const (1 + i.tr)
  have d2 := ((hasDerivAt_const i.ar (2 * (1 - i.tr))).div d1 (mul_ne_zero h1 h2)).const_sub (Real.tan (Real.pi / 180 * i.sweep))
  refine d2.congr_deriv ?_
  simp only [dtAr]
  field_simp
  ring

theorem hasDerivAt_tlam_tr (i : In) (h1 : i.ar ≠ 0) (h2 : 1 + i.tr ≠ 0) :
    HasDerivAt (fun x => tlam { i with tr := x }) (dtTr i) i.tr := by
  have d1 : HasDerivAt (fun x : ℝ => i.ar * (1 + x)) i.ar i.tr := by
    simpa using ((hasDerivAt_id i.tr).const_add 1).const_mul i.ar
  have d0 : HasDerivAt (fun x : ℝ => 2 * (1 - x)) (-2) i.tr := by
    simpa using ((hasDerivAt_id i.tr).const_sub 1).const_mul 2
  have d2 := (d0.div d1 (mul_ne_zero h1 h2)).const_sub (Real.tan (Real.pi / 180 * i.sweep))
  refine d2.congr_deriv ?_
  simp only [dtTr]
  field_simp
  ring

theorem hasDerivAt_caya (a : ℝ) (h : a ≠ 5) : HasDerivAt caya (if a > 5 then 1 else 0) a := by
  rcases lt_or_gt_of_ne h with h | h
  · rw [if_neg (not_lt.mpr h.le)]
    refine (hasDerivAt_const a (0:ℝ)).congr_of_eventuallyEq ?_
    filter_upwards [Iio_mem_nhds h] with x hx
    simp [caya, le_of_lt (Set.mem_Iio.mp hx)]
  · rw [if_pos h]
    refine ((hasDerivAt_id a).sub_const 5).congr_of_eventuallyEq ?_
    filter_upwards [Ioi_mem_nhds h] with x hx
    simp [caya, not_le.mpr (Set.mem_Ioi.mp hx)]

/-- The correction for sweep along any change of its four arguments. -/
theorem hasDerivAt_cayl {s c6 ca c4 : ℝ → ℝ} {s' c6' ca' c4' x : ℝ} (hs : HasDerivAt s s' x) (h6 : HasDerivAt c6 c6' x)
    (ha : HasDerivAt ca ca' x) (h4 : HasDerivAt c4 c4' x) :
    HasDerivAt (fun y => cayl (s y) (c6 y) (ca y) (c4 y))
      (dcSlam (s x) (c6 x) (ca x) (c4 x) * s' + (1 - s x ^ 2) * s x ^ 2 * c6' + (1 - s x ^ 2) * 0.03 * c4 x * s x * ca'
        + (1 - s x ^ 2) * 0.03 * ca x * s x * c4') x := by
  have d := ((hs.pow 2).const_sub 1).mul ((((h6.mul (hs.pow 2)).const_add 1)).add (((ha.const_mul 0.03).mul h4).mul hs))
  refine (d.congr_of_eventuallyEq (Filter.Eventually.of_forall fun y => ?_)).congr_deriv ?_
  · simp only [cayl, Pi.mul_apply, Pi.add_apply, Pi.pow_apply]
    try ring
  · simp only [dcSlam, Pi.mul_apply, Pi.add_apply, Pi.pow_apply]
    norm_num
    ring

/-- The bending factor through the correction for sweep. -/
theorem hasDerivAt_bend {a k : ℝ → ℝ} {a' k' x : ℝ} (ha : HasDerivAt a a' x) (hk : HasDerivAt k k' x) (tca : ℝ) (ht : tca ≠ 0) (h0 : k x ≠ 0) :
    HasDerivAt (fun y => a y / (k y * tca)) (a' * (1 / (k x * tca)) + (-a x * tca * (1 / (k x * tca)) ^ 2) * k') x := by
  refine (ha.div (hk.mul_const tca) (mul_ne_zero h0 ht)).congr_deriv ?_
  field_simp
  ring

/-- Where the formulas are smooth, apart from the aspect ratio five. -/
structure Good (i : In) : Prop where
  area : 0 < i.area
  span : i.span ≠ 0
  tca : i.tca ≠ 0
  ar : i.ar ≠ 0
  tr : 1 + i.tr ≠ 0
  cos : Real.cos (Real.pi / 180 * i.sweep) ≠ 0
  kayl : kayl i ≠ 0

theorem Good.t2a_pos {i : In} (g : Good i) : 0 < t2a i :=
  div_pos (pow_pos_of_ne g.span) g.area
where pow_pos_of_ne {x : ℝ} (h : x ≠ 0) : 0 < x ^ 2 := by positivity

/-- The sweep. -/
theorem partial_sweep (i : In) (g : Good i) : HasDerivAt (fun x => bend { i with sweep := x }) (jSweep i) i.sweep := by
  have ds := HasDerivAt.comp (h₂ := slam) i.sweep (hasDerivAt_slam (tlam i)) (hasDerivAt_tlam_sweep i g.cos)
  have dk := hasDerivAt_cayl ds (hasDerivAt_const _ (c6 i)) (hasDerivAt_const _ (caya i.ar)) (hasDerivAt_const _ (c4 i))
  have db := hasDerivAt_bend (hasDerivAt_const _ (0.215 * (0.37 + 0.7 * i.tr) * (i.span ^ 2 / i.area) ^ (1 - 0.25 * i.fstrt))) dk i.tca g.tca g.kayl
  refine db.congr_deriv ?_
  simp only [jSweep, dbCayl, dcT, t1, t2, t2a, ems, t3, kayl, Function.comp]
  ring

/-- The aspect ratio, apart from five. -/
theorem partial_ar (i : In) (g : Good i) (h5 : i.ar ≠ 5) : HasDerivAt (fun x => bend { i with ar := x }) (jAr i) i.ar := by
  have ds := HasDerivAt.comp (h₂ := slam) i.ar (hasDerivAt_slam (tlam i)) (hasDerivAt_tlam_ar i g.ar g.tr)
  have dk := hasDerivAt_cayl ds (hasDerivAt_const _ (c6 i)) (hasDerivAt_caya i.ar h5) (hasDerivAt_const _ (c4 i))
  have db := hasDerivAt_bend (hasDerivAt_const _ (0.215 * (0.37 + 0.7 * i.tr) * (i.span ^ 2 / i.area) ^ (1 - 0.25 * i.fstrt))) dk i.tca g.tca g.kayl
  refine db.congr_deriv ?_
  simp only [jAr, dcAr, dbCayl, dcT, t1, t2, t2a, ems, t3, kayl, Function.comp]
  split_ifs <;> ring

/-- The taper ratio. -/
theorem partial_tr (i : In) (g : Good i) : HasDerivAt (fun x => bend { i with tr := x }) (jTr i) i.tr := by
  have ds := HasDerivAt.comp (h₂ := slam) i.tr (hasDerivAt_slam (tlam i)) (hasDerivAt_tlam_tr i g.ar g.tr)
  have dk := hasDerivAt_cayl ds (hasDerivAt_const _ (c6 i)) (hasDerivAt_const _ (caya i.ar)) (hasDerivAt_const _ (c4 i))
  have da : HasDerivAt (fun x : ℝ => 0.215 * (0.37 + 0.7 * x) * (i.span ^ 2 / i.area) ^ (1 - 0.25 * i.fstrt))
      (0.215 * 0.7 * (i.span ^ 2 / i.area) ^ (1 - 0.25 * i.fstrt)) i.tr := by
    have := ((((hasDerivAt_id i.tr).const_mul 0.7).const_add 0.37).const_mul 0.215).mul_const ((i.span ^ 2 / i.area) ^ (1 - 0.25 * i.fstrt))
    simpa only [id, mul_one] using this
  have db := hasDerivAt_bend da dk i.tca g.tca g.kayl
  refine db.congr_deriv ?_
  simp only [jTr, dbTr, dbCayl, dcT, t1, t2, t2a, ems, t3, kayl, Function.comp]
  ring

/-- The tailoring factor. -/
theorem partial_faert (i : In) (g : Good i) : HasDerivAt (fun x => bend { i with faert := x }) (jFaert i) i.faert := by
  have d6 : HasDerivAt (fun x : ℝ => 0.5 * x - 0.16 * i.fstrt) 0.5 i.faert := by
    simpa using ((hasDerivAt_id i.faert).const_mul 0.5).sub_const (0.16 * i.fstrt)
  have d4 : HasDerivAt (fun x : ℝ => 1 - 0.5 * x) (-0.5) i.faert := by
    simpa using ((hasDerivAt_id i.faert).const_mul 0.5).const_sub 1
  have dk := hasDerivAt_cayl (hasDerivAt_const i.faert (slam (tlam i))) d6 (hasDerivAt_const _ (caya i.ar)) d4
  have db := hasDerivAt_bend (hasDerivAt_const _ (0.215 * (0.37 + 0.7 * i.tr) * (i.span ^ 2 / i.area) ^ (1 - 0.25 * i.fstrt))) dk i.tca g.tca g.kayl
  refine db.congr_deriv ?_
  simp only [jFaert, dcFaert, dbCayl, t1, t2, t2a, ems, t3, kayl, c6, c4]
  ring

/-- The strut bracing factor. -/
theorem partial_fstrt (i : In) (g : Good i) : HasDerivAt (fun x => bend { i with fstrt := x }) (jFstrt i) i.fstrt := by
  have d6 : HasDerivAt (fun x : ℝ => 0.5 * i.faert - 0.16 * x) (-0.16) i.fstrt := by
    simpa using ((hasDerivAt_id i.fstrt).const_mul 0.16).const_sub (0.5 * i.faert)
  have dk := hasDerivAt_cayl (hasDerivAt_const i.fstrt (slam (tlam i))) d6 (hasDerivAt_const _ (caya i.ar)) (hasDerivAt_const _ (c4 i))
  have de : HasDerivAt (fun x : ℝ => 1 - 0.25 * x) (-0.25) i.fstrt := by
    simpa using ((hasDerivAt_id i.fstrt).const_mul 0.25).const_sub 1
  have da := (de.const_rpow g.t2a_pos).const_mul (0.215 * (0.37 + 0.7 * i.tr))
  have db := hasDerivAt_bend da dk i.tca g.tca g.kayl
  refine db.congr_deriv ?_
  simp only [jFstrt, dcFstrt, dbExp, dbCayl, t1, t2, t2a, ems, t3, kayl, c6]
  ring

/-- The span. -/
theorem partial_span (i : In) (g : Good i) : HasDerivAt (fun x => bend { i with span := x }) (jSpan i) i.span := by
  have d : HasDerivAt (fun x : ℝ => x ^ 2 / i.area) (2 * i.span / i.area) i.span := by
    simpa using (hasDerivAt_pow 2 i.span).div_const i.area
  have da := (d.rpow_const (p := 1 - 0.25 * i.fstrt) (Or.inl g.t2a_pos.ne')).const_mul (0.215 * (0.37 + 0.7 * i.tr))
  refine (da.div_const (kayl i * i.tca)).congr_deriv ?_
  simp only [jSpan, t1, t2a, ems, t3]
  ring

/-- The area. -/
theorem partial_area (i : In) (g : Good i) : HasDerivAt (fun x => bend { i with area := x }) (jArea i) i.area := by
  have ha : i.area ≠ 0 := g.area.ne'
  have d : HasDerivAt (fun x : ℝ => i.span ^ 2 / x) (-(i.span ^ 2 / i.area ^ 2)) i.area := by
    refine ((hasDerivAt_const i.area (i.span ^ 2)).div (hasDerivAt_id i.area) ha).congr_deriv ?_
    simp only [id]
    ring
  have da := (d.rpow_const (p := 1 - 0.25 * i.fstrt) (Or.inl g.t2a_pos.ne')).const_mul (0.215 * (0.37 + 0.7 * i.tr))
  refine (da.div_const (kayl i * i.tca)).congr_deriv ?_
  simp only [jArea, t1, t2a, ems, t3]
  generalize (i.span ^ 2 / i.area) ^ (1 - 0.25 * i.fstrt - 1) = P
  have hk := g.kayl
  have ht := g.tca
  field_simp

/-- The thickness to chord. -/
theorem partial_tca (i : In) (g : Good i) : HasDerivAt (fun x => bend { i with tca := x }) (jTca i) i.tca := by
  have hk := g.kayl
  have ht := g.tca
  have d := (hasDerivAt_const i.tca (0.215 * (0.37 + 0.7 * i.tr) * (i.span ^ 2 / i.area) ^ (1 - 0.25 * i.fstrt))).div
    ((hasDerivAt_id i.tca).const_mul (kayl i)) (mul_ne_zero hk ht)
  refine d.congr_deriv ?_
  simp only [jTca, t1, t2, t2a, ems, t3, id]
  field_simp
  ring

/-! ### Values -/

/-- A wing swept back enough and of any aspect ratio has a positive correction, for factors between zero and one. -/
theorem kayl_pos (i : In) (h1 : 0 ≤ i.faert) (h2 : i.faert ≤ 1) (h4 : i.fstrt ≤ 1) (ht : 0 ≤ tlam i) : 0 < kayl i := by
  have hs : 0 < 1 - slam (tlam i) ^ 2 := by rw [one_sub_slam]; positivity
  have h0 : 0 ≤ slam (tlam i) := div_nonneg ht (Real.rpow_nonneg (by positivity) _)
  have ha : 0 ≤ caya i.ar := by
    unfold caya
    split_ifs with h
    · exact le_refl 0
    · linarith
  refine mul_pos hs ?_
  have hc4 : 0 ≤ c4 i := by unfold c4; linarith
  have hc6 : -0.16 ≤ c6 i := by unfold c6; linarith
  have := mul_nonneg (mul_nonneg (mul_nonneg (by norm_num : (0:ℝ) ≤ 0.03) ha) hc4) h0
  nlinarith [sq_nonneg (slam (tlam i))]

/-- The factor of such a wing is positive. -/
theorem bend_pos (i : In) (hk : 0 < kayl i) (ht : 0 < i.tca) (hr : 0 ≤ i.tr) (ha : 0 < i.area) (hs : i.span ≠ 0) : 0 < bend i := by
  have : 0 < i.span ^ 2 / i.area := div_pos (by positivity) ha
  have := Real.rpow_pos_of_pos this (1 - 0.25 * i.fstrt)
  unfold bend
  positivity

/-- A longer wing of the same area is not lighter, for strut bracing factors up to four. -/
theorem bend_mono_span (i : In) (x : ℝ) (hk : 0 < kayl i) (ht : 0 < i.tca) (hr : 0 ≤ i.tr) (ha : 0 < i.area) (hs : 0 ≤ i.span) (hx : i.span ≤ x)
    (hf : i.fstrt ≤ 4) : bend i ≤ bend { i with span := x } := by
  have e : kayl { i with span := x } = kayl i := rfl
  unfold bend
  rw [e]
  dsimp only
  have h2 : i.span ^ 2 / i.area ≤ x ^ 2 / i.area := by gcongr
  have := Real.rpow_le_rpow (by positivity) h2 (show 0 ≤ 1 - 0.25 * i.fstrt by linarith)
  gcongr

/-- The inertia relief of engines is positive for up to 33 of them. -/
theorem pod_pos_iff (n : ℕ) : 0 < pod n ↔ n ≤ 33 := by
  unfold pod
  constructor
  · intro h
    by_contra hc
    have : (34:ℝ) ≤ n := by exact_mod_cast not_le.mp hc
    linarith
  · intro h
    have : (n:ℝ) ≤ 33 := by exact_mod_cast h
    linarith

/-- The correction jumps in its slope at the aspect ratio five: the derivative from the left is taken there, and it is not the one from the
right. -/
theorem caya_five_violated : ¬ DifferentiableAt ℝ caya 5 := by
  intro h
  have hd := h.hasDerivAt
  have h1 : HasDerivWithinAt caya 0 (Set.Iic 5) 5 := by
    refine (hasDerivWithinAt_const (5:ℝ) (Set.Iic 5) (0:ℝ)).congr (fun x hx => ?_) ?_
    · simp only [caya, if_pos (Set.mem_Iic.mp hx)]
    · simp [caya]
  have h2 : HasDerivWithinAt caya 1 (Set.Ici 5) 5 := by
    refine (((hasDerivAt_id (5:ℝ)).sub_const 5).hasDerivWithinAt (s := Set.Ici 5)).congr (fun x hx => ?_) ?_
    · rcases eq_or_lt_of_le (Set.mem_Ici.mp hx) with rfl | hx
      · simp [caya]
      · simp [caya, not_le.mpr hx]
    · simp [caya]
  have e1 := (uniqueDiffWithinAt_Iic (5:ℝ)).eq_deriv _ hd.hasDerivWithinAt h1
  have e2 := (uniqueDiffWithinAt_Ici (5:ℝ)).eq_deriv _ hd.hasDerivWithinAt h2
  rw [e1] at e2
  norm_num at e2

/-- An unswept wing of constant chord. -/
def plain : In := { fstrt := 0, span := 10, tr := 1, area := 10, tca := 0.1, faert := 0, ar := 10, sweep := 0 }

example : tlam plain = 0 := by simp [tlam, plain]

example : kayl plain = 1 := by simp [kayl, cayl, slam, tlam, plain]

example : Good plain := by
  refine ⟨by norm_num [plain], by norm_num [plain], by norm_num [plain], by norm_num [plain], by norm_num [plain], ?_, ?_⟩
  · simp [plain]
  · simp [kayl, cayl, slam, tlam, plain]

/-- The factor of a plain wing is that of its aspect ratio. -/
theorem bend_plain : bend plain = 0.215 * 1.07 * 10 / 0.1 := by
  have e : kayl plain = 1 := by simp [kayl, cayl, slam, tlam, plain]
  unfold bend
  rw [e]
  norm_num [plain]

end Verif.WingSimple
