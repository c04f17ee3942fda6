import Verif.Props.GaspLoads

/-!
# Ultimate load factor of GASP: theorems (C124)
-/

namespace Verif.GaspLoads
open Real

/-- All inputs but the speeds and the maneuver factor are positive, the speeds and the factor are not negative. -/
structure LF.Pos (p : LF) : Prop where
  w : 0 < p.w
  s : 0 < p.s
  c : 0 < p.c
  a : 0 < p.a
  r : 0 < p.r

theorem LF.set_get (p : LF) (i : Inp) : p.set i (p.get i) = p := by cases i <;> rfl

theorem LF.Pos.mu {p : LF} (h : p.Pos) : 0 < p.mu := by
  have := h.w; have := h.s; have := h.c; have := h.a; have := h.r
  unfold LF.mu; positivity

theorem LF.Pos.k {p : LF} (h : p.Pos) : 0 < p.k := by
  have := h.mu
  unfold LF.k; positivity

theorem mu_deriv {p : LF} (h : p.Pos) (i : Inp) : HasDerivAt (fun t => (p.set i t).mu) (p.dmu 1 i) (p.get i) := by
  have h1 := h.w; have h2 := h.s; have h3 := h.c; have h4 := h.a; have h5 := h.r
  cases i <;> simp only [LF.set, LF.mu, LF.dmu, LF.get]
  · exact (((hasDerivAt_id' p.w).const_mul 2).div_const _).congr_deriv (by ring)
  · refine ((hasDerivAt_const p.s (2 * p.w)).fun_div (((((hasDerivAt_id' p.s).mul_const p.r).mul_const p.c).mul_const p.a).mul_const 32.2)
      (by positivity)).congr_deriv ?_
    field_simp; ring
  · exact hasDerivAt_const _ _
  · exact hasDerivAt_const _ _
  · exact hasDerivAt_const _ _
  · refine ((hasDerivAt_const p.c (2 * p.w)).fun_div ((((hasDerivAt_id' p.c).const_mul (p.s * p.r)).mul_const p.a).mul_const 32.2)
      (by positivity)).congr_deriv ?_
    field_simp; ring
  · refine ((hasDerivAt_const p.a (2 * p.w)).fun_div (((hasDerivAt_id' p.a).const_mul (p.s * p.r * p.c)).mul_const 32.2)
      (by positivity)).congr_deriv ?_
    field_simp; ring

theorem k_deriv {p : LF} (h : p.Pos) (i : Inp) : HasDerivAt (fun t => (p.set i t).k) (p.dk 1 i) (p.get i) := by
  have hm := mu_deriv h i
  have h0 := h.mu
  have e : (p.set i (p.get i)).mu = p.mu := by rw [p.set_get]
  refine ((hm.const_mul 0.88).fun_div (hm.const_add 5.3) (by rw [e]; positivity)).congr_deriv ?_
  rw [e, LF.dk, dquot]

/-- The derivative of the cruise load factor. -/
theorem cr_deriv {p : LF} (h : p.Pos) (i : Inp) : HasDerivAt (fun t => (p.set i t).cr) (p.dcr 1 i) (p.get i) := by
  have hk := k_deriv h i
  have hw := h.w
  cases i <;> simp only [LF.set, LF.get] at hk <;> simp only [LF.set, LF.cr, LF.dcr, LF.get]
  · refine ((((hk.mul_const 50).mul_const p.v9).mul_const p.a).fun_div ((hasDerivAt_id' p.w).const_mul 498) (by positivity)).const_add
      1 |>.congr_deriv ?_
    simp only [dquot]
  · exact ((((hk.mul_const 50).mul_const p.v9).mul_const p.a).div_const _).const_add 1
  · change HasDerivAt (fun t => 1 + p.k * 50 * t * p.a / (498 * p.w)) _ _
    exact (((((hasDerivAt_id' p.v9).const_mul (p.k * 50))).mul_const p.a).div_const _).const_add 1 |>.congr_deriv (by ring)
  · exact hasDerivAt_const _ p.cr
  · exact hasDerivAt_const _ p.cr
  · exact ((((hk.mul_const 50).mul_const p.v9).mul_const p.a).div_const _).const_add 1
  · exact ((((hk.mul_const 50).mul_const p.v9).fun_mul (hasDerivAt_id' p.a)).div_const _).const_add 1 |>.congr_deriv (by ring)

/-- The derivative of the dive load factor is the one the code uses without smoothing. -/
theorem dv_deriv {p : LF} (h : p.Pos) (i : Inp) : HasDerivAt (fun t => (p.set i t).dv) (p.dg0 1 i) (p.get i) := by
  have hk := k_deriv h i
  have hw := h.w
  cases i <;> simp only [LF.set, LF.get] at hk <;> simp only [LF.set, LF.dv, LF.dg0, LF.get]
  · refine ((((hk.mul_const 25).mul_const p.vd).mul_const p.a).fun_div ((hasDerivAt_id' p.w).const_mul 498) (by positivity)).const_add
      1 |>.congr_deriv ?_
    simp only [dquot]
  · exact ((((hk.mul_const 25).mul_const p.vd).mul_const p.a).div_const _).const_add 1
  · exact hasDerivAt_const _ p.dv
  · change HasDerivAt (fun t => 1 + p.k * 25 * t * p.a / (498 * p.w)) _ _
    exact (((((hasDerivAt_id' p.vd).const_mul (p.k * 25))).mul_const p.a).div_const _).const_add 1 |>.congr_deriv (by ring)
  · exact hasDerivAt_const _ p.dv
  · exact ((((hk.mul_const 25).mul_const p.vd).mul_const p.a).div_const _).const_add 1
  · exact ((((hk.mul_const 25).mul_const p.vd).fun_mul (hasDerivAt_id' p.a)).div_const _).const_add 1 |>.congr_deriv (by ring)

theorem m_deriv (p : LF) (i : Inp) : HasDerivAt (fun t => (p.set i t).m) (if i = .maneuver then 1 else 0) (p.get i) := by
  cases i
  case maneuver => exact hasDerivAt_id' _
  all_goals exact hasDerivAt_const _ _

theorem ddv_eq (p : LF) (dw : ℝ) (i : Inp) (h : i ≠ .slope) : p.ddv dw i = p.dg0 dw i := by
  cases i <;> first | rfl | exact absurd rfl h

/-- The ultimate load factor without smoothing is one and a half times the largest of the three factors. -/
theorem ulf_max (p : LF) : p.ulf false false = 1.5 * max p.m (max p.cr p.dv) := by
  have e : p.gust false = max p.cr p.dv := by
    simp only [LF.gust, Bool.false_eq_true, if_false]
    split
    · rw [max_eq_left]; linarith
    · rw [max_eq_right]; linarith
  simp only [LF.ulf, Bool.false_eq_true, if_false, e]
  generalize max p.cr p.dv = q
  split
  · rw [max_eq_right]; linarith
  · rw [max_eq_left]; linarith

/-- Taken from the maneuver: all entries are the derivatives. -/
theorem ulf_maneuver (p : LF) (sm : Bool) (dw : ℝ) (i : Inp) :
    HasDerivAt (fun t => (p.set i t).ulf true sm) (p.jUlf true sm dw i) (p.get i) := by
  simp only [LF.ulf, LF.jUlf, if_true]
  refine ((m_deriv p i).const_mul 1.5).congr_deriv ?_
  split <;> simp

/-- Without smoothing all entries are the derivatives where the factors differ. -/
theorem ulf_plain {p : LF} (h : p.Pos) (h1 : p.cr ≠ p.dv) (h2 : p.gust false ≠ p.m) (i : Inp) :
    HasDerivAt (fun t => (p.set i t).ulf false false) (p.jUlf false false 1 i) (p.get i) := by
  have hc := cr_deriv h i
  have hd := dv_deriv h i
  have e := p.set_get i
  have hg : HasDerivAt (fun t => (p.set i t).gust false) (p.dgust false 1 i) (p.get i) := by
    simp only [LF.gust, LF.dgust, Bool.false_eq_true, if_false, gt_iff_lt]
    have := hasDerivAt_ite_lt (inst := fun t => Classical.propDecidable _) hd.continuousAt hc.continuousAt (by rw [e]; exact h1.symm)
      (fun _ => hc) (fun _ => hd)
    refine (this.congr_deriv ?_).congr_of_eventuallyEq (Filter.Eventually.of_forall fun t => ?_)
    · rw [e]
    · simp
  have hm := m_deriv p i
  simp only [LF.ulf, LF.jUlf, Bool.false_eq_true, if_false, gt_iff_lt]
  have := hasDerivAt_ite_lt (inst := fun t => Classical.propDecidable _) hm.continuousAt hg.continuousAt (by rw [e]; exact h2.symm)
      (fun _ => hg.const_mul 1.5) (fun _ => hm.const_mul 1.5)
  refine (this.congr_deriv ?_).congr_of_eventuallyEq (Filter.Eventually.of_forall fun t => ?_)
  · rw [e]
    by_cases hi : i = .maneuver
    · subst hi; simp [LF.dgust, LF.dcr, LF.dg0]
    · simp [hi]
  · simp

/-- Blended wing body, without smoothing: the same by gross mass and by exposed area. -/
theorem jUlf_linear (p : LF) (fm sm : Bool) (dw : ℝ) : p.jUlf fm sm dw .load = p.jUlf fm sm 1 .load * dw := by
  have e1 : p.dmu dw .load = p.dmu 1 .load * dw := by simp only [LF.dmu]; ring
  have e2 : p.dk dw .load = p.dk 1 .load * dw := by simp only [LF.dk, e1, dquot]; ring
  have e3 : p.dcr dw .load = p.dcr 1 .load * dw := by simp only [LF.dcr, e2, dquot]; ring
  have e4 : p.ddv dw .load = p.ddv 1 .load * dw := by simp only [LF.ddv, e2, dquot]; ring
  have e5 : p.dg0 dw .load = p.dg0 1 .load * dw := by simp only [LF.dg0, e2, dquot]; ring
  have e6 : p.dgust sm dw .load = p.dgust sm 1 .load * dw := by
    simp only [LF.dgust, e3, e4, e5, dquot]
    split
    · ring
    · split <;> rfl
  have e7 : p.dgust true dw .load = p.dgust true 1 .load * dw := by
    simp only [LF.dgust, e3, e4, dquot, if_true]; ring
  have e8 : p.dgust false dw .load = p.dgust false 1 .load * dw := by
    simp only [LF.dgust, e3, e5, Bool.false_eq_true, if_false]; split <;> rfl
  simp only [LF.jUlf]
  cases fm <;> cases sm <;> simp [e7, e8, jMix, dquot]
  · split_ifs <;> ring
  · ring

theorem bwb_plain {p : LF} (g s : ℝ) (hs : s ≠ 0) (hp : p.w = g / s) (h : p.Pos) (h1 : p.cr ≠ p.dv) (h2 : p.gust false ≠ p.m) :
    HasDerivAt (fun t => (p.set .load (t / s)).ulf false false) (p.jUlf false false (1 / s) .load) g ∧
      HasDerivAt (fun t => (p.set .load (g / t)).ulf false false) (p.jUlf false false (-g / s ^ 2) .load) s := by
  have h3 := ulf_plain h h1 h2 .load
  have e : p.get .load = g / s := hp
  rw [e] at h3
  constructor
  · have := HasDerivAt.comp g (h₂ := fun t => (p.set .load t).ulf false false) (h := fun t => t / s) h3 ((hasDerivAt_id' g).div_const s)
    rw [jUlf_linear]; exact this
  · have hd : HasDerivAt (fun t => g / t) (-g / s ^ 2) s :=
      ((hasDerivAt_const s g).fun_div (hasDerivAt_id' s) hs).congr_deriv (by ring)
    have := HasDerivAt.comp s (h₂ := fun t => (p.set .load t).ulf false false) (h := fun t => g / t) h3 hd
    rw [jUlf_linear]; exact this

/-! ## With smoothing -/

/-- The derivative of the smooth gust factor that the code should use. -/
noncomputable def LF.tgust (p : LF) (i : Inp) : ℝ :=
  p.dg0 1 i * sigX (p.cr / p.dv) 1 (-0.01) + p.dv * p.dH * dquot (p.dv - p.cr) p.dv (p.dg0 1 i - p.dcr 1 i) (p.dg0 1 i)
    + p.dcr 1 i * sigX (p.cr / p.dv) 1 0.01 + p.cr * p.dH * dquot (p.cr - p.dv) p.dv (p.dcr 1 i - p.dg0 1 i) (p.dg0 1 i)

theorem tgust_deriv {p : LF} (h : p.Pos) (h0 : p.dv ≠ 0) (h1 : InRange (p.cr / p.dv)) (i : Inp) :
    HasDerivAt (fun t => (p.set i t).gust true) (p.tgust i) (p.get i) := by
  have e := p.set_get i
  have := mixMax_deriv (cr_deriv h i) (dv_deriv h i) (by rw [e]; exact h0) (by rw [e]; exact h1)
  simp only [LF.gust, if_true]
  refine this.congr_deriv ?_
  rw [e, LF.tgust, LF.dH]

/-- The true derivative for every input. -/
theorem ulf_smooth_true {p : LF} (h : p.Pos) (h0 : p.dv ≠ 0) (h1 : InRange (p.cr / p.dv)) (hg : p.gust true ≠ 0)
    (h2 : InRange (p.m / p.gust true)) (i : Inp) (hi : i ≠ .maneuver) :
    HasDerivAt (fun t => (p.set i t).ulf false true) (jMix p.m (p.gust true) (p.tgust i)) (p.get i) := by
  have e := p.set_get i
  have := (mixMax_deriv (m_deriv p i) (tgust_deriv h h0 h1 i) (by rw [e]; exact hg) (by rw [e]; exact h2)).const_mul 1.5
  simp only [LF.ulf, Bool.false_eq_true, if_false, if_true]
  refine this.congr_deriv ?_
  rw [e, if_neg hi, jMix]
  ring_nf

/-- With smoothing the entries by cruise speed, chord and maneuver factor are the derivatives. -/
theorem ulf_smooth_partial {p : LF} (h : p.Pos) (h0 : p.dv ≠ 0) (h1 : InRange (p.cr / p.dv)) (hg : p.gust true ≠ 0)
    (h2 : InRange (p.m / p.gust true)) (i : Inp) (hi : i = .v9 ∨ i = .chord ∨ i = .maneuver) (dw : ℝ) :
    HasDerivAt (fun t => (p.set i t).ulf false true) (p.jUlf false true dw i) (p.get i) := by
  rcases hi with rfl | rfl | rfl
  · exact ulf_smooth_true h h0 h1 hg h2 .v9 (by decide)
  · exact ulf_smooth_true h h0 h1 hg h2 .chord (by decide)
  · have := (mixMax_deriv (m_deriv p .maneuver) (tgust_deriv h h0 h1 .maneuver) hg h2).const_mul 1.5
    simp only [LF.ulf, Bool.false_eq_true, if_false, if_true]
    refine this.congr_deriv ?_
    have e : p.tgust .maneuver = 0 := by simp [LF.tgust, LF.dg0, LF.dcr, dquot]
    have e1 : (p.set .maneuver (p.get .maneuver)).gust true = p.gust true := by rw [p.set_get]
    simp only [LF.jUlf, e, e1]
    simp [LF.set, LF.get]

/-- The remaining entries agree with the derivative only if the derivatives of the gust factor agree. -/
theorem jMix_eq (g dg : ℝ) (hg : g ≠ 0) : jMix g g dg = 1.5 * (dg / 2) := by
  simp only [jMix, div_self hg, sig_one, dquot]
  field_simp
  ring

theorem entry_wrong {p : LF} (h : p.Pos) (h0 : p.dv ≠ 0) (h1 : InRange (p.cr / p.dv)) (hg : p.gust true ≠ 0)
    (hm : p.m = p.gust true) (i : Inp) (hi : i ≠ .maneuver) (hd : i ≠ .dive) (hne : p.dgust true 1 i ≠ p.tgust i) :
    ¬ HasDerivAt (fun t => (p.set i t).ulf false true) (p.jUlf false true 1 i) (p.get i) := by
  intro hc
  have ht := ulf_smooth_true h h0 h1 hg (by rw [hm, div_self hg]; exact InRange.one) i hi
  have e := hc.unique ht
  have e2 : p.jUlf false true 1 i = jMix p.m (p.gust true) (p.dgust true 1 i) := by
    cases i <;> first | exact absurd rfl hi | exact absurd rfl hd | rfl
  rw [e2, hm, jMix_eq _ _ hg, jMix_eq _ _ hg] at e
  exact hne (by linarith)

/-- The derivative of the ratio of the two load factors. -/
noncomputable def LF.dratio (p : LF) (i : Inp) : ℝ := dquot p.cr p.dv (p.dcr 1 i) (p.dg0 1 i)

theorem load_diff (p : LF) (h0 : p.dv ≠ 0) (h1 : InRange (p.cr / p.dv)) :
    p.dgust true 1 .load - p.tgust .load = -2 * p.dH * (p.cr - p.dv) * p.dratio .load := by
  have hG : p.dG = -p.dH := dsig_neg (by norm_num) h1.lo h1.hi
  simp only [LF.dgust, LF.tgust, if_true, LF.first, LF.second, hG, ddv_eq p 1 .load (by decide), LF.dratio, dquot]
  field_simp
  ring

theorem density_diff (p : LF) (h0 : p.dv ≠ 0) (h1 : InRange (p.cr / p.dv)) :
    p.dgust true 1 .density - p.tgust .density = 2 * p.dH * p.dv * p.dratio .density := by
  have hG : p.dG = -p.dH := dsig_neg (by norm_num) h1.lo h1.hi
  simp only [LF.dgust, LF.tgust, if_true, LF.first, LF.second, hG, ddv_eq p 1 .density (by decide), LF.dratio, dquot]
  field_simp
  ring

theorem cr_sub_dv (p : LF) : p.cr - p.dv = p.k * 25 * (2 * p.v9 - p.vd) * p.a / (498 * p.w) := by
  simp only [LF.cr, LF.dv]; ring

theorem dk_load {p : LF} (h : p.Pos) : p.dk 1 .load * p.w * (5.3 + p.mu) = 5.3 * p.k := by
  have h0 := h.mu
  have h1 := h.w; have h2 := h.s; have h3 := h.c; have h4 := h.a; have h5 := h.r
  have e : p.dmu 1 .load = p.mu / p.w := by simp only [LF.dmu, LF.mu]; field_simp
  simp only [LF.dk, LF.k, dquot, e]
  field_simp
  ring

theorem dk_density {p : LF} (h : p.Pos) : p.dk 1 .density * p.s * (5.3 + p.mu) = -(5.3 * p.k) := by
  have h0 := h.mu
  have h1 := h.w; have h2 := h.s; have h3 := h.c; have h4 := h.a; have h5 := h.r
  have e : p.dmu 1 .density = -(p.mu / p.s) := by simp only [LF.dmu, LF.mu]; field_simp
  simp only [LF.dk, LF.k, dquot, e]
  field_simp
  ring

theorem dratio_load {p : LF} (h : p.Pos) (h0 : p.dv ≠ 0) :
    p.dratio .load * p.dv ^ 2 * ((5.3 + p.mu) * 498 * p.w ^ 2) = -(p.k * p.mu * 25 * (2 * p.v9 - p.vd) * p.a) := by
  have hk := dk_load h
  have hw := h.w.ne'
  have e : p.dratio .load * p.dv ^ 2 = p.dcr 1 .load * p.dv - p.cr * p.dg0 1 .load := by
    simp only [LF.dratio, dquot]; field_simp
  rw [e]
  simp only [LF.dcr, LF.dg0, LF.cr, LF.dv, dquot]
  generalize p.dk 1 .load = d at *
  generalize p.k = k at *
  generalize p.mu = mu at *
  field_simp
  linear_combination (12450 * p.a * p.w * (2 * p.v9 - p.vd)) * hk

theorem dratio_density {p : LF} (h : p.Pos) (h0 : p.dv ≠ 0) :
    p.dratio .density * p.dv ^ 2 * (498 * p.w) = p.dk 1 .density * 25 * (2 * p.v9 - p.vd) * p.a := by
  have hw := h.w.ne'
  have e : p.dratio .density * p.dv ^ 2 = p.dcr 1 .density * p.dv - p.cr * p.dg0 1 .density := by
    simp only [LF.dratio, dquot]; field_simp
  rw [e]
  simp only [LF.dcr, LF.dg0, LF.cr, LF.dv]
  field_simp
  ring

/-- With smoothing the entries by wing loading and density ratio are wrong wherever the two factors differ and the
maneuver factor equals the gust factor. -/
theorem ulf_smooth_violated {p : LF} (h : p.Pos) (h0 : p.dv ≠ 0) (h1 : InRange (p.cr / p.dv)) (hg : p.gust true ≠ 0)
    (hm : p.m = p.gust true) (hv : p.vd ≠ 2 * p.v9) :
    ¬ HasDerivAt (fun t => (p.set .load t).ulf false true) (p.jUlf false true 1 .load) p.w ∧
      ¬ HasDerivAt (fun t => (p.set .density t).ulf false true) (p.jUlf false true 1 .density) p.s := by
  have hH : p.dH ≠ 0 := (dsig_pos (by norm_num) h1.lo).ne'
  have hmu := h.mu; have hk := h.k; have ha := h.a; have hw := h.w; have hs := h.s
  have hd : 2 * p.v9 - p.vd ≠ 0 := sub_ne_zero.2 hv.symm
  refine ⟨entry_wrong h h0 h1 hg hm .load (by decide) (by decide) ?_, entry_wrong h h0 h1 hg hm .density (by decide) (by decide) ?_⟩
  · rw [← sub_ne_zero, load_diff p h0 h1]
    have hr : p.dratio .load ≠ 0 := by
      intro e
      have := dratio_load h h0
      rw [e] at this
      have h3 : p.k * p.mu * 25 * (2 * p.v9 - p.vd) * p.a ≠ 0 := by positivity
      apply h3; linarith
    have hc : p.cr - p.dv ≠ 0 := by rw [cr_sub_dv]; positivity
    positivity
  · rw [← sub_ne_zero, density_diff p h0 h1]
    have hr : p.dratio .density ≠ 0 := by
      intro e
      have h2 := dratio_density h h0
      have h3 := dk_density h
      rw [e] at h2
      have h4 : p.dk 1 .density ≠ 0 := by
        intro e4; rw [e4] at h3; linarith
      have h5 : p.dk 1 .density * 25 * (2 * p.v9 - p.vd) * p.a ≠ 0 := by positivity
      apply h5; linarith
    positivity

/-- With smoothing the entries by lift curve slope and dive speed are wrong wherever both load factors and the
maneuver factor agree. -/
theorem ulf_smooth_slope_violated {p : LF} (h : p.Pos) (hv : p.vd = 2 * p.v9) (hv0 : 0 < p.v9) (hm : p.m = p.dv) :
    ¬ HasDerivAt (fun t => (p.set .slope t).ulf false true) (p.jUlf false true 1 .slope) p.a ∧
      ¬ HasDerivAt (fun t => (p.set .dive t).ulf false true) (p.jUlf false true 1 .dive) p.vd := by
  have hmu := h.mu; have hk := h.k; have ha := h.a; have hw := h.w
  have hcd : p.cr = p.dv := by have := cr_sub_dv p; rw [hv, sub_self] at this; simp at this; linarith
  have hpos : 0 < p.dv := by unfold LF.dv; rw [hv]; positivity
  have h0 := hpos.ne'
  have h1 : InRange (p.cr / p.dv) := by rw [hcd, div_self h0]; exact InRange.one
  have hgust : p.gust true = p.dv := by
    simp only [LF.gust, if_true, mix, hcd, div_self h0, sig_one]; ring
  have hg : p.gust true ≠ 0 := by rw [hgust]; exact h0
  have hm' : p.m = p.gust true := by rw [hm, hgust]
  have key : ∀ i, p.tgust i = (p.dg0 1 i + p.dcr 1 i) / 2 := by
    intro i
    simp only [LF.tgust, hcd, div_self h0, sig_one, dquot]
    field_simp
    ring
  constructor
  · refine entry_wrong h h0 h1 hg hm' .slope (by decide) (by decide) ?_
    have e : p.dgust true 1 .slope = (p.ddv 1 .slope + p.dcr 1 .slope) / 2 := by
      simp only [LF.dgust, if_true, hcd, div_self h0, sig_one, dquot, LF.first, LF.second]
      field_simp
      ring
    rw [e, key, ← sub_ne_zero]
    have e2 : p.ddv 1 .slope - p.dg0 1 .slope = p.k * 25 * p.vd / (498 * p.w) := by
      simp only [LF.ddv, LF.dg0]; field_simp; ring
    have h3 : 0 < p.k * 25 * p.vd / (498 * p.w) := by rw [hv]; positivity
    intro hh; linarith
  · intro hc
    have ht := ulf_smooth_true h h0 h1 hg (by rw [hm', div_self hg]; exact InRange.one) .dive (by decide)
    have e := hc.unique ht
    rw [hm', jMix_eq _ _ hg, key] at e
    have h3 : 0 < p.k * 25 * p.a / (498 * p.w) := by positivity
    simp only [LF.jUlf, LF.dg0, LF.dcr] at e
    norm_num at e
    rcases e with (e | e) | e <;> simp_all

/-- The points of the two negations exist for all positive inputs. -/
theorem violated_reachable {p : LF} (h : p.Pos) (hv0 : 0 < p.v9) :
    ∃ q : LF, q.Pos ∧ q.vd = 2 * q.v9 ∧ 0 < q.v9 ∧ q.m = q.dv :=
  ⟨{ p with vd := 2 * p.v9, m := ({ p with vd := 2 * p.v9 } : LF).dv }, ⟨h.w, h.s, h.c, h.a, h.r⟩, rfl, hv0, rfl⟩

theorem mix_pos {a b : ℝ} (ha : 0 < a) (hb : 0 < b) (h : InRange (a / b)) : 0 < mix a b := by
  have h1 := sig_add (x := a / b) (x0 := 1) (mu := 0.01) (by norm_num) h.lo h.hi
  have h2 : 0 ≤ sigX (a / b) 1 0.01 := by unfold sigX; split <;> positivity
  have h3 : 0 ≤ sigX (a / b) 1 (-0.01) := by unfold sigX; split <;> positivity
  unfold mix
  rcases h3.eq_or_lt with h4 | h4
  · rw [← h4] at h1 ⊢; have : sigX (a / b) 1 0.01 = 1 := by linarith
    rw [this]; linarith
  · have := mul_pos hb h4; have := mul_nonneg ha.le h2; linarith

theorem violated_reachable' {p : LF} (h : p.Pos) (hv : 0 < p.v9) (hd : 0 ≤ p.vd) (h1 : InRange (p.cr / p.dv)) :
    p.dv ≠ 0 ∧ ∃ m, m = p.gust true ∧ p.gust true ≠ 0 := by
  have hk := h.k; have ha := h.a; have hw := h.w
  have a : 0 < p.dv := by unfold LF.dv; positivity
  have b : 0 < p.cr := by unfold LF.cr; positivity
  exact ⟨a.ne', _, rfl, by simpa [LF.gust] using (mix_pos b a h1).ne'⟩

example : (⟨100, 0.5, 300, 500, 2.5, 12, 5, 0.0024⟩ : LF).Pos ∧ InRange ((⟨100, 0.5, 300, 500, 2.5, 12, 5, 0.0024⟩ : LF).cr /
    (⟨100, 0.5, 300, 500, 2.5, 12, 5, 0.0024⟩ : LF).dv) ∧ (500 : ℝ) ≠ 2 * 300 := by
  refine ⟨⟨by norm_num, by norm_num, by norm_num, by norm_num, by norm_num⟩, ?_, by norm_num⟩
  norm_num [InRange, LF.cr, LF.dv, LF.k, LF.mu]

/-- Blended wing body with smoothing: the entries by gross mass and by exposed area are wrong at the same points. -/
theorem bwb_smooth_violated {p : LF} (g s : ℝ) (hs : 0 < s) (hp : p.w = g / s) (h : p.Pos) (h0 : p.dv ≠ 0)
    (h1 : InRange (p.cr / p.dv)) (hg : p.gust true ≠ 0) (hm : p.m = p.gust true) (hv : p.vd ≠ 2 * p.v9) :
    ¬ HasDerivAt (fun t => (p.set .load (t / s)).ulf false true) (p.jUlf false true (1 / s) .load) g ∧
      ¬ HasDerivAt (fun t => (p.set .load (g / t)).ulf false true) (p.jUlf false true (-g / s ^ 2) .load) s := by
  have ht := ulf_smooth_true h h0 h1 hg (by rw [hm, div_self hg]; exact InRange.one) .load (by decide)
  have hn := (ulf_smooth_violated h h0 h1 hg hm hv).1
  have e : p.get .load = g / s := hp
  have hg0 : 0 < g := by
    have := h.w; rw [hp] at this; exact (div_pos_iff_of_pos_right hs).1 this
  rw [e] at ht
  have fin : ∀ {x dw : ℝ} {w : ℝ → ℝ}, w x = g / s → HasDerivAt w dw x → dw ≠ 0 →
      ¬ HasDerivAt (fun t => (p.set .load (w t)).ulf false true) (p.jUlf false true dw .load) x := by
    intro x dw w hx hw hne hc
    have h2 : HasDerivAt (fun t => (p.set .load (w t)).ulf false true) _ x :=
      HasDerivAt.comp x (h₂ := fun t => (p.set .load t).ulf false true) (h := w) (by rw [hx]; exact ht) hw
    have e2 := hc.unique h2
    rw [jUlf_linear] at e2
    have e3 := mul_right_cancel₀ hne e2
    apply hn
    rw [e3, hp]; exact ht
  constructor
  · exact fin (w := fun t => t / s) rfl ((hasDerivAt_id' g).div_const s) (by positivity)
  · refine fin (w := fun t => g / t) rfl (((hasDerivAt_const s g).fun_div (hasDerivAt_id' s) hs.ne').congr_deriv (by ring)) ?_
    rw [neg_div, neg_ne_zero]; positivity

end Verif.GaspLoads
