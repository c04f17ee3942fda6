import Verif.Model.SkinFriction
import Mathlib.Tactic.LinearCombination
import Mathlib.Tactic.FieldSimp
import Mathlib.Tactic.Positivity
import Mathlib.Tactic.NormNum
import Mathlib.Topology.Order.IntermediateValue
import Mathlib.Analysis.SpecialFunctions.Exp
import Mathlib.Analysis.Complex.ExponentialBounds

/-! # Skin friction -/

namespace Verif.SkinFriction
open Real

variable {n : ℕ}

/-! ## C94 Skin friction of the components -/

/-! ### Partials of the residuals -/

theorem slp_pos : 0 < slp := by norm_num [slp]
theorem combK_pos : 0 < combK := by norm_num [combK]

theorem RE_pos {T p : ℝ} (hT : 0 < T) (hp : 0 < p) : 0 < RE T p := by
  have := slp_pos
  unfold RE kelvin; positivity

theorem RE_p (T p : ℝ) : HasDerivAt (fun t => RE T t) (dREp T) p :=
  affine_deriv fun t => by
    have := slp_pos.ne'
    simp [RE, dREp]; field_simp

theorem RE_T {T p : ℝ} (hT : T ≠ 0) : HasDerivAt (fun t => RE t p) (dRET T p) T := by
  have hs := slp_pos.ne'
  have hk : HasDerivAt kelvin (1 / (18 / 10)) T := affine_deriv fun t => by simp [kelvin]; ring
  have hk0 : kelvin T ≠ 0 := by unfold kelvin; positivity
  have h := (((hk.add_const (1104 / 10)).const_mul (1479301000 * (p / slp))).fun_div (hk.fun_pow 2)
    (pow_ne_zero 2 hk0))
  refine hd_congr h (fun t => rfl) ?_
  unfold dRET
  field_simp
  push_cast
  ring

/-- The Reynolds number: all four coded partials of its residual. -/
theorem reynolds_partials {T p M L : ℝ} (hT : T ≠ 0) (out : ℝ) :
    HasDerivAt (fun t => out - reynolds T t M L) (-(dREp T * M * L)) p
    ∧ HasDerivAt (fun t => out - reynolds t p M L) (-(dRET T p * M * L)) T
    ∧ HasDerivAt (fun t => out - reynolds T p t L) (-(RE T p * L)) M
    ∧ HasDerivAt (fun t => out - reynolds T p M t) (-(RE T p * M)) L
    ∧ HasDerivAt (fun t => t - reynolds T p M L) 1 out := by
  refine ⟨?_, ?_, ?_, ?_, ?_⟩
  · exact (((RE_p T p).mul_const M).mul_const L).const_sub out
  · exact (((RE_T hT).mul_const M).mul_const L).const_sub out
  · exact affine_deriv fun t => by simp [reynolds]; ring
  · exact affine_deriv fun t => by simp [reynolds]; ring
  · exact affine_deriv fun t => by ring

theorem rpow_half {T : ℝ} (hT : 0 < T) :
    T ^ (3 / 2 : ℝ) = T * T ^ (1 / 2 : ℝ) ∧ T ^ (5 / 2 : ℝ) = T ^ 2 * T ^ (1 / 2 : ℝ) := by
  constructor
  · rw [show (3 / 2 : ℝ) = 1 + 1 / 2 by norm_num, rpow_add hT, rpow_one]
  · rw [show (5 / 2 : ℝ) = 2 + 1 / 2 by norm_num, rpow_add hT]
    norm_num

theorem comb_aux {T R M : ℝ → ℝ} {T' R' M' x : ℝ} (hT : HasDerivAt T T' x) (hR : HasDerivAt R R' x)
    (hM : HasDerivAt M M' x) (pT : 0 < T x) (pR : 0 < R x) (pM : 0 < M x) :
    HasDerivAt (fun t => combK * (T t + 19872 / 100) / (R t * M t * T t ^ (3 / 2 : ℝ)))
      (combK * (1 / T x ^ (3 / 2 : ℝ) - 3 / 2 * (T x + 19872 / 100) / T x ^ (5 / 2 : ℝ))
          / (R x * M x) * T'
        + -combK * (T x + 19872 / 100) / (R x * R x * M x * T x ^ (3 / 2 : ℝ)) * R'
        + -combK * (T x + 19872 / 100) / (R x * M x * M x * T x ^ (3 / 2 : ℝ)) * M') x := by
  have hp := hT.rpow_const (p := (3 / 2 : ℝ)) (Or.inl pT.ne')
  have h0 : R x * M x * T x ^ (3 / 2 : ℝ) ≠ 0 := by positivity
  have h := ((hT.add_const (19872 / 100)).const_mul combK).fun_div ((hR.mul hM).mul hp) h0
  refine hd_congr h (fun t => rfl) ?_
  obtain ⟨h1, h2⟩ := rpow_half pT
  have hu : 0 < T x ^ (1 / 2 : ℝ) := by positivity
  simp only [Pi.mul_apply]
  rw [show (3 / 2 - 1 : ℝ) = 1 / 2 by norm_num, h1, h2]
  set u := T x ^ (1 / 2 : ℝ)
  field_simp
  ring

theorem wtr_aux {T M w : ℝ → ℝ} {T' M' w' x : ℝ} (hT : HasDerivAt T T' x) (hM : HasDerivAt M M' x)
    (hw : HasDerivAt w w' x) (h0 : T x ≠ 0) :
    HasDerivAt (fun t => wtr (T t) (M t) (w t))
      (dWtrT (T x) (w x) * T' + dWtrM (M x) * M' + dWtrw (T x) * w') x := by
  have h := ((((hw.mul ((hasDerivAt_const x (1 : ℝ)).fun_div hT h0)).sub_const 1).const_mul
    (45 / 100)).const_add 1).add (((hM.const_mul (35 / 1000)).mul hM))
  refine hd_congr h (fun t => rfl) ?_
  unfold dWtrT dWtrM dWtrw
  field_simp
  ring

theorem CFL_aux {c r : ℝ → ℝ} {c' r' x : ℝ} (hc : HasDerivAt c c' x) (hr : HasDerivAt r r' x)
    (pc : 0 < c x) (pr : 0 < r x) :
    HasDerivAt (fun t => CFL (c t) (r t))
      (dCFLcf (c x) (r x) * c' + dCFLr (c x) (r x) * r') x := by
  have hs : 0 < √(c x) := sqrt_pos.mpr pc
  have hd : 0 < 1 + 359 / 100 * √(c x) * r x := by positivity
  have h := hc.fun_div ((((hc.sqrt pc.ne').const_mul (359 / 100)).mul hr).const_add 1) hd.ne'
  refine hd_congr h (fun t => rfl) ?_
  unfold dCFLcf dCFLr
  simp only [Pi.mul_apply]
  set s := √(c x)
  set d := 1 + 359 / 100 * s * r x with hdd
  field_simp
  rw [hdd]
  ring

theorem wall_aux {a c F w : ℝ → ℝ} {a' c' F' w' x : ℝ} (ha : HasDerivAt a a' x)
    (hc : HasDerivAt c c' x) (hF : HasDerivAt F F' x) (hw : HasDerivAt w w' x) (pc : 0 < c x)
    (pF : 0 < F x) (pw : 0 ≤ w x) :
    HasDerivAt (fun t => resWall0 (a t) (c t) (F t) (w t))
      (1 / 2 / (1 + c x * w x ^ 3 / F x) * a' + dWallComb (a x) (c x) (F x) (w x) * c'
        + dWallCFL (a x) (c x) (F x) (w x) * F' + dWallw (a x) (c x) (F x) (w x) * w') x := by
  have hd : 0 < 1 + c x * w x ^ 3 / F x := by positivity
  have h := (((ha.fun_div (((hc.mul (hw.fun_pow 3)).fun_div hF pF.ne').const_add 1) hd.ne').add
    hw).mul_const (1 / 2)).sub hw
  refine hd_congr h (fun t => rfl) ?_
  unfold dWallComb dWallCFL dWallw
  simp only [Pi.mul_apply]
  set d := 1 + c x * w x ^ 3 / F x with hdd
  field_simp
  push_cast
  ring

theorem wtr_pos {T M w : ℝ} (hT : 0 < T) (hw : 0 ≤ w) : 0 < wtr T M w := by
  unfold wtr
  have : 0 ≤ w * (1 / T) := by positivity
  nlinarith [mul_self_nonneg M]

theorem CFL_pos {cf r : ℝ} (hc : 0 < cf) (hr : 0 < r) : 0 < CFL cf r := by
  unfold CFL; positivity

theorem comb_pos {T p M : ℝ} (hT : 0 < T) (hp : 0 < p) (hM : 0 < M) : 0 < comb T p M := by
  have := combK_pos
  have := RE_pos hT hp
  unfold comb; positivity

/-- The wall temperature residual along any motion of its inputs. -/
theorem resWall_deriv {a T p M cf w : ℝ → ℝ} {a' T' p' M' cf' w' x : ℝ} (ha : HasDerivAt a a' x)
    (hT : HasDerivAt T T' x) (hR : HasDerivAt (fun t => RE (T t) (p t))
      (dRET (T x) (p x) * T' + dREp (T x) * p') x) (hM : HasDerivAt M M' x)
    (hcf : HasDerivAt cf cf' x) (hw : HasDerivAt w w' x) (pT : 0 < T x) (pp : 0 < p x)
    (pM : 0 < M x) (pcf : 0 < cf x) (pw : 0 ≤ w x) :
    HasDerivAt (fun t => resWall (a t) (T t) (p t) (M t) (cf t) (w t))
      (1 / 2 / (1 + comb (T x) (p x) (M x) * w x ^ 3 / CFL (cf x) (wtr (T x) (M x) (w x))) * a'
        + jWallT (a x) (T x) (p x) (M x) (cf x) (w x) * T'
        + jWallp (a x) (T x) (p x) (M x) (cf x) (w x) * p'
        + jWallM (a x) (T x) (p x) (M x) (cf x) (w x) * M'
        + jWallcf (a x) (T x) (p x) (M x) (cf x) (w x) * cf'
        + jWallw (a x) (T x) (p x) (M x) (cf x) (w x) * w') x := by
  have hr := wtr_aux hT hM hw pT.ne'
  have hc := comb_aux hT hR hM pT (RE_pos pT pp) pM
  have hF := CFL_aux hcf hr pcf (wtr_pos pT pw)
  have h := wall_aux ha hc hF hw (comb_pos pT pp pM) (CFL_pos pcf (wtr_pos pT pw)) pw
  refine hd_congr h (fun t => rfl) ?_
  simp only [jWallT, jWallp, jWallM, jWallcf, jWallw, dCombT, dCombp, dCombM, dCombRE]
  unfold comb
  ring

/-- With `TAW` held fixed all coded partials of the wall temperature residual are right. -/
theorem wall_partials_partial {taw T p M cf w : ℝ} (hT : 0 < T) (hp : 0 < p) (hM : 0 < M)
    (hcf : 0 < cf) (hw : 0 ≤ w) :
    HasDerivAt (fun t => resWall taw t p M cf w) (jWallT taw T p M cf w) T
    ∧ HasDerivAt (fun t => resWall taw T t M cf w) (jWallp taw T p M cf w) p
    ∧ HasDerivAt (fun t => resWall taw T p t cf w) (jWallM taw T p M cf w) M
    ∧ HasDerivAt (fun t => resWall taw T p M t w) (jWallcf taw T p M cf w) cf
    ∧ HasDerivAt (fun t => resWall taw T p M cf t) (jWallw taw T p M cf w) w := by
  have hc := fun x c : ℝ => hasDerivAt_const x c
  refine ⟨?_, ?_, ?_, ?_, ?_⟩
  · exact hd_congr (resWall_deriv (hc T taw) (hasDerivAt_id T)
      (p := fun _ => p) (p' := 0) (by simpa using RE_T hT.ne') (hc T M) (hc T cf) (hc T w)
      hT hp hM hcf hw) (fun t => rfl) (by simp)
  · exact hd_congr (resWall_deriv (hc p taw) (hc p T)
      (p := id) (p' := 1) (by simpa using RE_p T p) (hc p M) (hc p cf) (hc p w)
      hT hp hM hcf hw) (fun t => rfl) (by simp)
  · exact hd_congr (resWall_deriv (hc M taw) (hc M T)
      (p := fun _ => p) (p' := 0) (by simpa using hc M (RE T p)) (hasDerivAt_id M) (hc M cf)
      (hc M w) hT hp hM hcf hw) (fun t => rfl) (by simp)
  · exact hd_congr (resWall_deriv (hc cf taw) (hc cf T)
      (p := fun _ => p) (p' := 0) (by simpa using hc cf (RE T p)) (hc cf M) (hasDerivAt_id cf)
      (hc cf w) hT hp hM hcf hw) (fun t => rfl) (by simp)
  · exact hd_congr (resWall_deriv (hc w taw) (hc w T)
      (p := fun _ => p) (p' := 0) (by simpa using hc w (RE T p)) (hc w M) (hc w cf)
      (hasDerivAt_id w) hT hp hM hcf hw) (fun t => rfl) (by simp)

example : (0 : ℝ) < 390 ∧ (0 : ℝ) < 475 ∧ (0 : ℝ) < 8 / 10 ∧ (0 : ℝ) < 2 / 1000 ∧ (0 : ℝ) ≤ 430 := by
  norm_num

/-- But `TAW` follows temperature and Mach number at the start of each solution, and the coded
partials leave that out: for no flight condition are they the derivatives of the residual that is
solved. -/
theorem wall_taw_violated {T p M cf w : ℝ} (hT : 0 < T) (hp : 0 < p) (hM : 0 < M) (hcf : 0 < cf)
    (hw : 0 ≤ w) :
    ¬ HasDerivAt (fun t => resWall (TAW t M) t p M cf w) (jWallT (TAW T M) T p M cf w) T
    ∧ ¬ HasDerivAt (fun t => resWall (TAW T t) T p t cf w) (jWallM (TAW T M) T p M cf w) M := by
  have hc := fun x c : ℝ => hasDerivAt_const x c
  have hd : 0 < 1 + comb T p M * w ^ 3 / CFL cf (wtr T M w) := by
    have := comb_pos hT hp hM
    have := CFL_pos hcf (wtr_pos (M := M) hT hw)
    positivity
  constructor
  · intro h
    have ha : HasDerivAt (fun t => TAW t M) (1 + 176 / 1000 * M * M) T :=
      affine_deriv fun t => by simp [TAW]
    have h2 := resWall_deriv ha (hasDerivAt_id T)
      (p := fun _ => p) (p' := 0) (by simpa using RE_T hT.ne') (hc T M) (hc T cf) (hc T w)
      hT hp hM hcf hw
    have e := h.unique h2
    simp only [id, mul_zero, mul_one, add_zero] at e
    have : 0 < 1 / 2 / (1 + comb T p M * w ^ 3 / CFL cf (wtr T M w)) * (1 + 176 / 1000 * M * M) := by
      positivity
    linarith
  · intro h
    have ha : HasDerivAt (fun t => TAW T t) (2 * (176 / 1000) * M * T) M := by
      have h1 := ((((hasDerivAt_id M).const_mul (176 / 1000)).mul (hasDerivAt_id M)).const_add
        1).mul_const T
      refine hd_congr h1 (fun t => rfl) ?_
      simp only [id]; ring
    have h2 := resWall_deriv ha (hc M T)
      (p := fun _ => p) (p' := 0) (by simpa using hc M (RE T p)) (hasDerivAt_id M) (hc M cf)
      (hc M w) hT hp hM hcf hw
    have e := h.unique h2
    simp only [id, mul_zero, mul_one, add_zero] at e
    have : 0 < 1 / 2 / (1 + comb T p M * w ^ 3 / CFL cf (wtr T M w)) * (2 * (176 / 1000) * M * T) := by
      positivity
    linarith

theorem RP_aux {R r T : ℝ → ℝ} {R' r' T' x : ℝ} (hR : HasDerivAt R R' x) (hr : HasDerivAt r r' x)
    (hT : HasDerivAt T T' x) (pr : 0 < r x) (pT : 0 < T x) :
    HasDerivAt (fun t => RP0 (R t) (r t) (T t))
      (dRPreyn (r x) (T x) * R' + dRPr (R x) (r x) (T x) * r' + dRPT0 (R x) (r x) (T x) * T') x := by
  have hp := hr.rpow_const (p := (5 / 2 : ℝ)) (Or.inl pr.ne')
  have h0 : (T x + 19872 / 100) * r x ^ (5 / 2 : ℝ) ≠ 0 := by positivity
  have h := (hR.mul ((hr.mul hT).add_const (19872 / 100))).fun_div
    ((hT.add_const (19872 / 100)).mul hp) h0
  refine hd_congr h (fun t => rfl) ?_
  obtain ⟨h1, h2⟩ := rpow_half pr
  have hu : 0 < r x ^ (1 / 2 : ℝ) := by positivity
  unfold dRPreyn dRPr dRPT0 rpDen rpNum
  simp only [Pi.mul_apply]
  rw [show (5 / 2 - 1 : ℝ) = 3 / 2 by norm_num, h1, h2]
  set u := r x ^ (1 / 2 : ℝ)
  field_simp
  ring

theorem cf_aux {r c : ℝ → ℝ} {r' c' x : ℝ} (hr : HasDerivAt r r' x) (hc : HasDerivAt c c' x)
    (pr : 0 < r x) (pc : 0 < c x) (hl : r x * c x ≠ 1) :
    HasDerivAt (fun t => resCf0 (r t) (c t))
      (dCfRP (r x) (c x) * r' + dCfcf (r x) (c x) * c') x := by
  have hp : 0 < r x * c x := by positivity
  have hlog : log (r x * c x) ≠ 0 := by
    rw [Real.log_ne_zero]; exact ⟨hp.ne', hl, by linarith⟩
  have h := ((((hasDerivAt_const x (242 / 1000 * conlog)).fun_div ((hr.mul hc).log hp.ne')
    hlog).fun_pow 2)).sub hc
  refine hd_congr h (fun t => rfl) ?_
  unfold dCfRP dCfcf fact
  simp only [Pi.mul_apply]
  set l := log (r x * c x)
  simp only [Nat.add_one_sub_one, pow_one, Nat.cast_ofNat]
  field_simp
  ring

theorem reynolds_pos {T p M L : ℝ} (hT : 0 < T) (hp : 0 < p) (hM : 0 < M) (hL : 0 < L) :
    0 < reynolds T p M L := by
  have := RE_pos hT hp
  unfold reynolds; positivity

theorem RP_pos {T p M L w : ℝ} (hT : 0 < T) (hp : 0 < p) (hM : 0 < M) (hL : 0 < L) (hw : 0 ≤ w) :
    0 < RP T p M L w := by
  have := reynolds_pos hT hp hM hL
  have := wtr_pos (M := M) hT hw
  unfold RP RP0; positivity

/-- All six coded partials of the residual of the friction coefficient are right. -/
theorem cf_partials {T p M L cf w : ℝ} (hT : 0 < T) (hp : 0 < p) (hM : 0 < M) (hL : 0 < L)
    (hcf : 0 < cf) (hw : 0 ≤ w) (hl : RP T p M L w * cf ≠ 1) :
    HasDerivAt (fun t => resCf t p M L cf w) (jCfT T p M L cf w) T
    ∧ HasDerivAt (fun t => resCf T t M L cf w) (jCfp T p M L cf w) p
    ∧ HasDerivAt (fun t => resCf T p t L cf w) (jCfM T p M L cf w) M
    ∧ HasDerivAt (fun t => resCf T p M t cf w) (jCfL T p M L cf w) L
    ∧ HasDerivAt (fun t => resCf T p M L t w) (dCfcf (RP T p M L w) cf) cf
    ∧ HasDerivAt (fun t => resCf T p M L cf t) (jCfw T p M L cf w) w := by
  have hc := fun x c : ℝ => hasDerivAt_const x c
  have pr := wtr_pos (M := M) hT hw
  have pRP := RP_pos hT hp hM hL hw
  refine ⟨?_, ?_, ?_, ?_, ?_, ?_⟩
  · have h1 := RP_aux ((((RE_T (p := p) hT.ne').mul_const M).mul_const L))
      (wtr_aux (hasDerivAt_id T) (hc T M) (hc T w) hT.ne') (hasDerivAt_id T) pr hT
    refine hd_congr (cf_aux h1 (hc T cf) pRP hcf hl) (fun t => rfl) ?_
    simp only [jCfT, id]; unfold RP reynolds; ring
  · have h1 := RP_aux ((((RE_p T p).mul_const M).mul_const L)) (hc p (wtr T M w)) (hc p T) pr hT
    refine hd_congr (cf_aux h1 (hc p cf) pRP hcf hl) (fun t => rfl) ?_
    simp only [jCfp]; unfold RP reynolds; ring
  · have h1 := RP_aux (R := fun t => RE T p * t * L) (R' := RE T p * L) (x := M)
      (affine_deriv fun t => by ring)
      (wtr_aux (hc M T) (hasDerivAt_id M) (hc M w) hT.ne') (hc M T) pr hT
    refine hd_congr (cf_aux h1 (hc M cf) pRP hcf hl) (fun t => rfl) ?_
    simp only [jCfM, id]; unfold RP reynolds; ring
  · have h1 := RP_aux (R := fun t => RE T p * M * t) (R' := RE T p * M) (x := L)
      (affine_deriv fun t => by ring) (hc L (wtr T M w)) (hc L T) pr hT
    refine hd_congr (cf_aux h1 (hc L cf) pRP hcf hl) (fun t => rfl) ?_
    simp only [jCfL]; unfold RP reynolds; ring
  · refine hd_congr (cf_aux (hc cf (RP T p M L w)) (hasDerivAt_id cf) pRP hcf hl) (fun t => rfl) ?_
    simp
  · have h1 := RP_aux (hc w (reynolds T p M L))
      (wtr_aux (hc w T) (hc w M) (hasDerivAt_id w) hT.ne') (hc w T) pr hT
    refine hd_congr (cf_aux h1 (hc w cf) pRP hcf hl) (fun t => rfl) ?_
    simp only [jCfw, id]; unfold RP; ring

/-- All coded partials of the residual of the output. -/
theorem skf_partials {T M w cf : ℝ} (out : ℝ) (hT : 0 < T) (hw : 0 ≤ w) :
    HasDerivAt (fun t => resSkf out cf (wtr t M w)) (dSkfr cf (wtr T M w) * dWtrT T w) T
    ∧ HasDerivAt (fun t => resSkf out cf (wtr T t w)) (dSkfr cf (wtr T M w) * dWtrM M) M
    ∧ HasDerivAt (fun t => resSkf out cf (wtr T M t)) (dSkfr cf (wtr T M w) * dWtrw T) w
    ∧ HasDerivAt (fun t => resSkf out t (wtr T M w)) (-1 / wtr T M w) cf
    ∧ HasDerivAt (fun t => resSkf t cf (wtr T M w)) 1 out := by
  have hc := fun x c : ℝ => hasDerivAt_const x c
  have pr := wtr_pos (M := M) hT hw
  have key : ∀ {r : ℝ → ℝ} {r' x : ℝ}, HasDerivAt r r' x → r x = wtr T M w →
      HasDerivAt (fun t => resSkf out cf (r t)) (dSkfr cf (wtr T M w) * r') x := by
    intro r r' x hr hx
    have h := ((hc x cf).fun_div hr (by rw [hx]; exact pr.ne')).const_sub out
    refine hd_congr h (fun t => rfl) ?_
    rw [hx]; unfold dSkfr; ring
  refine ⟨?_, ?_, ?_, ?_, ?_⟩
  · exact hd_congr (key (wtr_aux (hasDerivAt_id T) (hc T M) (hc T w) hT.ne') rfl) (fun t => rfl)
      (by simp)
  · exact hd_congr (key (wtr_aux (hc M T) (hasDerivAt_id M) (hc M w) hT.ne') rfl) (fun t => rfl)
      (by simp)
  · exact hd_congr (key (wtr_aux (hc w T) (hc w M) (hasDerivAt_id w) hT.ne') rfl) (fun t => rfl)
      (by simp)
  · exact affine_deriv fun t => by simp [resSkf]; ring
  · exact affine_deriv fun t => by simp [resSkf]; ring

/-! ### What the residuals determine -/

/-- At a solution the wall is at the adiabatic temperature reduced by radiation. -/
theorem resWall_zero (taw T p M cf w : ℝ) :
    resWall taw T p M cf w = 0
      ↔ w = taw / (1 + comb T p M * w ^ 3 / CFL cf (wtr T M w)) := by
  unfold resWall resWall0
  constructor <;> intro h <;> linarith

/-- For a given friction coefficient there is exactly one wall temperature, and it lies between
zero and the adiabatic one. -/
theorem wall_unique {taw T p M cf : ℝ} (ht : 0 < taw) (hT : 0 < T) (hp : 0 < p) (hM : 0 < M)
    (hcf : 0 < cf) :
    ∃! w, 0 ≤ w ∧ resWall taw T p M cf w = 0 := by
  have hc := comb_pos hT hp hM
  have hcont : ContinuousOn (fun w => resWall taw T p M cf w) (Set.Icc 0 taw) := fun w hw =>
    (wall_partials_partial hT hp hM hcf hw.1).2.2.2.2.continuousAt.continuousWithinAt
  have h0 : 0 ≤ resWall taw T p M cf 0 := by
    unfold resWall resWall0; norm_num; exact ht.le
  have h1 : resWall taw T p M cf taw ≤ 0 := by
    have hk : 0 ≤ comb T p M * taw ^ 3 / CFL cf (wtr T M taw) := by
      have := CFL_pos hcf (wtr_pos (M := M) hT ht.le)
      positivity
    have : taw / (1 + comb T p M * taw ^ 3 / CFL cf (wtr T M taw)) ≤ taw :=
      div_le_self ht.le (by linarith)
    unfold resWall resWall0; linarith
  obtain ⟨w, hw, hz⟩ := intermediate_value_Icc' ht.le hcont ⟨h1, h0⟩
  refine ⟨w, ⟨hw.1, hz⟩, ?_⟩
  have anti : ∀ {v u : ℝ}, 0 ≤ v → v < u → resWall taw T p M cf v = 0 →
      resWall taw T p M cf u = 0 → False := by
    intro v u hv hvu zv zu
    rw [resWall_zero] at zv zu
    have pv := wtr_pos (M := M) hT hv
    have pu := wtr_pos (M := M) hT (hv.trans hvu.le)
    have fv := CFL_pos hcf pv
    have fu := CFL_pos hcf pu
    have hr : wtr T M v ≤ wtr T M u := by
      unfold wtr
      have : v * (1 / T) ≤ u * (1 / T) := mul_le_mul_of_nonneg_right hvu.le (by positivity)
      linarith
    have hF : CFL cf (wtr T M u) ≤ CFL cf (wtr T M v) := by
      unfold CFL
      have : 0 ≤ 359 / 100 * √cf := by positivity
      exact div_le_div_of_nonneg_left hcf.le (by positivity)
        (by linarith [mul_le_mul_of_nonneg_left hr this])
    have hu0 : 0 ≤ u := hv.trans hvu.le
    have h3 : v ^ 3 ≤ u ^ 3 := pow_le_pow_left₀ hv hvu.le 3
    have hk : comb T p M * v ^ 3 / CFL cf (wtr T M v) ≤ comb T p M * u ^ 3 / CFL cf (wtr T M u) :=
      div_le_div₀ (by positivity) (mul_le_mul_of_nonneg_left h3 hc.le) fu hF
    have hkv : 0 ≤ comb T p M * v ^ 3 / CFL cf (wtr T M v) := by positivity
    have : taw / (1 + comb T p M * u ^ 3 / CFL cf (wtr T M u))
        ≤ taw / (1 + comb T p M * v ^ 3 / CFL cf (wtr T M v)) :=
      div_le_div_of_nonneg_left ht.le (by linarith) (by linarith)
    linarith
  rintro u ⟨hu, zu⟩
  rcases lt_trichotomy u w with h | h | h
  · exact (anti hu h zu hz).elim
  · exact h
  · exact (anti hw.1 h hz zu).elim

theorem wall_lt {taw T p M cf w : ℝ} (ht : 0 < taw) (hT : 0 < T) (hp : 0 < p) (hM : 0 < M)
    (hcf : 0 < cf) (hw : 0 ≤ w) (h : resWall taw T p M cf w = 0) : 0 < w ∧ w < taw := by
  rw [resWall_zero] at h
  have hk : 0 ≤ comb T p M * w ^ 3 / CFL cf (wtr T M w) := by
    have := comb_pos hT hp hM
    have := CFL_pos hcf (wtr_pos (M := M) hT hw)
    positivity
  have hw0 : 0 < w := by rw [h]; positivity
  refine ⟨hw0, ?_⟩
  have hk : 0 < comb T p M * w ^ 3 / CFL cf (wtr T M w) := by
    have := comb_pos hT hp hM
    have := CFL_pos hcf (wtr_pos (M := M) hT hw)
    positivity
  rw [h]
  exact div_lt_self ht (by linarith)

theorem sq_lt_exp {s : ℝ} (hs : 0 ≤ s) : s ^ 2 < exp s := by
  have h := quadratic_le_exp_of_nonneg (show (0 : ℝ) ≤ s / 2 by linarith)
  have h2 : exp s = exp (s / 2) ^ 2 := by rw [← exp_nat_mul]; congr 1; ring
  rw [h2]
  have : s < exp (s / 2) := by nlinarith [sq_nonneg (s - 2)]
  exact pow_lt_pow_left₀ this hs (by norm_num)

/-- For a given value of `RP`, at least 4, exactly one positive friction coefficient makes the
residual zero; the logarithm is positive there. -/
theorem cf_unique {rp : ℝ} (h : 4 ≤ rp) : ∃! c, 0 < c ∧ resCf0 rp c = 0 := by
  have hrp : 0 < rp := by linarith
  set K : ℝ := 242 / 1000 * conlog with hK
  have hKv : K = 242 / 1000 * (2302585 / 1000000) := by rw [hK, conlog]
  have hK0 : 0 < K := by rw [hKv]; norm_num
  have hK1 : 1 / 4 < K ^ 2 := by rw [hKv]; norm_num
  have hK2 : K ^ 2 < 1 := by rw [hKv]; norm_num
  have res : ∀ c, resCf0 rp c = (K / log (rp * c)) ^ 2 - c := fun c => rfl
  -- a root lies where the logarithm is positive
  have big : ∀ c, 0 < c → resCf0 rp c = 0 → 0 < log (rp * c) := by
    intro c hc hz
    by_contra hn
    rw [not_lt] at hn
    rw [res] at hz
    rcases hn.lt_or_eq with hl | hl
    · set s := -log (rp * c) with hs
      have hs0 : 0 < s := by rw [hs]; linarith
      have he : rp * c = exp (-s) := by rw [hs, neg_neg, exp_log (by positivity)]
      have hc' : c = (K / s) ^ 2 := by
        have : log (rp * c) = -s := by rw [hs]; ring
        rw [this, div_neg, neg_sq] at hz; linarith
      have h1 : rp * K ^ 2 = exp (-s) * s ^ 2 := by
        rw [← he, hc', div_pow]; field_simp
      have h2 : exp (-s) * s ^ 2 < exp (-s) * exp s :=
        mul_lt_mul_of_pos_left (sq_lt_exp hs0.le) (exp_pos _)
      rw [← exp_add, neg_add_cancel, exp_zero] at h2
      nlinarith
    · rw [hl, div_zero] at hz; norm_num at hz; linarith
  have cont : ContinuousOn (fun c => resCf0 rp c) (Set.Icc (exp (1 / 2) / rp) (exp 1)) := by
    intro c hc
    have hc0 : 0 < c := lt_of_lt_of_le (by positivity) hc.1
    have hl : 1 / 2 ≤ log (rp * c) := by
      rw [le_log_iff_exp_le (by positivity)]
      have := hc.1
      rw [div_le_iff₀ hrp] at this
      linarith
    refine ContinuousAt.continuousWithinAt ?_
    have h1 : ContinuousAt (fun c => log (rp * c)) c :=
      (continuousAt_const.mul continuousAt_id).log (by simp; constructor <;> positivity)
    exact ((continuousAt_const.div h1 (ne_of_gt (by linarith))).pow 2).sub continuousAt_id
  have e1 : (2 : ℝ) < exp 1 := by have := exp_one_gt_d9; linarith
  have e2 : exp 1 < 3 := by have := exp_one_lt_d9; linarith
  have eh : exp (1 / 2 : ℝ) ^ 2 = exp 1 := by rw [← exp_nat_mul]; congr 1; norm_num
  have eh2 : exp (1 / 2 : ℝ) < 2 := by nlinarith [exp_pos (1 / 2 : ℝ)]
  have hab : exp (1 / 2) / rp ≤ exp 1 := by
    rw [div_le_iff₀ hrp]; nlinarith
  have ha : 0 ≤ resCf0 rp (exp (1 / 2) / rp) := by
    rw [res, mul_div_cancel₀ _ hrp.ne', log_exp, div_pow]
    have : exp (1 / 2 : ℝ) / rp ≤ 1 / 2 := by rw [div_le_iff₀ hrp]; linarith
    norm_num; linarith
  have hb : resCf0 rp (exp 1) ≤ 0 := by
    rw [res]
    have hl : 1 ≤ log (rp * exp 1) := by
      rw [log_mul hrp.ne' (exp_pos 1).ne', log_exp]
      have := log_nonneg (show (1 : ℝ) ≤ rp by linarith)
      linarith
    have : (K / log (rp * exp 1)) ^ 2 ≤ K ^ 2 :=
      pow_le_pow_left₀ (by positivity) (div_le_self hK0.le hl) 2
    linarith
  obtain ⟨c, hc, hz⟩ := intermediate_value_Icc' hab cont ⟨hb, ha⟩
  have anti : ∀ {c d : ℝ}, 0 < c → c < d → resCf0 rp c = 0 → resCf0 rp d = 0 → False := by
    intro c d hc hcd zc zd
    have lc := big c hc zc
    have ld : log (rp * c) < log (rp * d) :=
      log_lt_log (by positivity) (mul_lt_mul_of_pos_left hcd hrp)
    have : (K / log (rp * d)) ^ 2 ≤ (K / log (rp * c)) ^ 2 :=
      pow_le_pow_left₀ (div_nonneg hK0.le (by linarith))
        (div_le_div_of_nonneg_left hK0.le lc ld.le) 2
    rw [res] at zc zd
    linarith
  refine ⟨c, ⟨lt_of_lt_of_le (by positivity) hc.1, hz⟩, ?_⟩
  rintro d ⟨hd, zd⟩
  rcases lt_trichotomy d c with h | h | h
  · exact (anti hd h zd hz).elim
  · exact h
  · exact (anti (lt_of_lt_of_le (by positivity) hc.1) h hz zd).elim

/-- A larger `RP` (a longer component, a denser air) gives a smaller friction coefficient. -/
theorem cf_anti {rp rp' c c' : ℝ} (h : 4 ≤ rp) (hlt : rp < rp') (hc' : 0 < c')
    (hl : 1 < rp * c) (z : resCf0 rp c = 0) (z' : resCf0 rp' c' = 0) : c' < c := by
  by_contra hn
  rw [not_lt] at hn
  unfold resCf0 at z z'
  have hK0 : (0 : ℝ) < 242 / 1000 * conlog := by norm_num [conlog]
  have l0 : 0 < log (rp * c) := log_pos hl
  have ll : log (rp * c) < log (rp' * c') := by
    refine log_lt_log (by linarith) ?_
    nlinarith
  have h1 : (242 / 1000 * conlog) / log (rp' * c') < (242 / 1000 * conlog) / log (rp * c) :=
    div_lt_div_of_pos_left hK0 l0 ll
  have := pow_lt_pow_left₀ h1 (div_nonneg hK0.le (by linarith)) (n := 2) (by norm_num)
  linarith

/-! ### Form factors -/

theorem bodyForm_deriv (f : ℝ) : HasDerivAt bodyForm (dBodyForm f) f := by
  have i := hasDerivAt_id f
  have h := (i.mul ((i.mul ((i.mul ((i.mul ((i.mul ((i.const_mul (137442 / 1000000000000)).add_const
    (-145532 / 10000000000))).const_add (621712 / 1000000000))).const_add
    (-138334 / 10000000))).const_add (171203 / 1000000))).const_add (-114281 / 100000))).const_add
    (434255 / 100000)
  refine hd_congr h (fun t => rfl) ?_
  simp only [Pi.mul_apply, id, dBodyForm]; ring

theorem ff1_deriv (f : ℝ) : HasDerivAt ff1 (dff1 f) f := by
  have i := hasDerivAt_id f
  have h := (i.mul ((i.mul ((i.mul ((i.mul ((i.mul ((i.mul_const (-158343 / 10)).const_add
    (859876 / 100))).const_add (-140302 / 100))).const_add (488876 / 10000))).const_add
    (716974 / 100000))).const_add (294206 / 100000))).const_add 1
  refine hd_congr h (fun t => rfl) ?_
  simp only [Pi.mul_apply, id, dff1]; ring

theorem surfForm_deriv (a f : ℝ) : HasDerivAt (surfForm a) (dSurfForm a f) f := by
  have h := ((ff1_deriv f).mul_const (2 - a)).add
    ((((hasDerivAt_id f).mul_const (4275 / 1000)).const_add 1).mul_const (a - 1))
  refine hd_congr h (fun t => rfl) ?_
  unfold dSurfForm; ring

/-- The coded slope is that of the form factor everywhere but at the two seams. -/
theorem form_deriv {a f : ℝ} (h1 : f ≠ 1 / 2) (h2 : f ≠ 20) : HasDerivAt (form a) (dForm a f) f := by
  rcases lt_or_gt_of_ne h1 with h | h
  · have e : dForm a f = dSurfForm a f := by
      unfold dForm; rw [if_neg (by linarith), if_neg (by linarith)]
    rw [e]
    refine (surfForm_deriv a f).congr_of_eventuallyEq ?_
    filter_upwards [gt_mem_nhds h] with t ht
    unfold form; rw [if_neg (by linarith), if_neg (by linarith)]
  · rcases lt_or_gt_of_ne h2 with h' | h'
    · have e : dForm a f = dBodyForm f := by
        unfold dForm; rw [if_neg (by linarith), if_pos h]
      rw [e]
      refine (bodyForm_deriv f).congr_of_eventuallyEq ?_
      filter_upwards [lt_mem_nhds h, gt_mem_nhds h'] with t ht ht'
      unfold form; rw [if_neg (by linarith), if_pos ht]
    · have e : dForm a f = 0 := by
        unfold dForm; rw [if_pos (by linarith)]
      rw [e]
      refine (hasDerivAt_const f (1 : ℝ)).congr_of_eventuallyEq ?_
      filter_upwards [lt_mem_nhds h'] with t ht
      unfold form; rw [if_pos (by linarith)]

/-- The form factor of a body is never below 1. -/
theorem bodyForm_ge {f : ℝ} (h1 : 1 / 2 ≤ f) (h2 : f ≤ 20) : 1 ≤ bodyForm f := by
  rcases le_total f (41 / 4) with h | h
  · have e : bodyForm f - 1 =
        29997386446507 / 9163395210937500000 * ((f - 1 / 2) ^ 0 * (41 / 4 - f) ^ 6)
        + 77890044204161 / 9163395210937500000 * ((f - 1 / 2) ^ 1 * (41 / 4 - f) ^ 5)
        + 74380778680001 / 7330716168750000000 * ((f - 1 / 2) ^ 2 * (41 / 4 - f) ^ 4)
        + 27249631634347 / 3665358084375000000 * ((f - 1 / 2) ^ 3 * (41 / 4 - f) ^ 3)
        + 102168198929281 / 29322864675000000000 * ((f - 1 / 2) ^ 4 * (41 / 4 - f) ^ 2)
        + 138092545134721 / 146614323375000000000 * ((f - 1 / 2) ^ 5 * (41 / 4 - f) ^ 1)
        + 21406309623929 / 195485764500000000000 * ((f - 1 / 2) ^ 6 * (41 / 4 - f) ^ 0) := by
      unfold bodyForm; ring
    have ha : 0 ≤ f - 1 / 2 := by linarith
    have hb : 0 ≤ 41 / 4 - f := by linarith
    have : 0 ≤ bodyForm f - 1 := by rw [e]; positivity
    linarith
  · have e : bodyForm f - 1 =
        21406309623929 / 195485764500000000000 * ((f - 41 / 4) ^ 0 * (20 / 1 - f) ^ 6)
        + 170513254627 / 458169760546875000 * ((f - 41 / 4) ^ 1 * (20 / 1 - f) ^ 5)
        + 11649934547 / 18326790421875000 * ((f - 41 / 4) ^ 2 * (20 / 1 - f) ^ 4)
        + 130618879 / 458169760546875 * ((f - 41 / 4) ^ 3 * (20 / 1 - f) ^ 3)
        + 8512484 / 91633952109375 * ((f - 41 / 4) ^ 4 * (20 / 1 - f) ^ 2)
        + 4009504 / 91633952109375 * ((f - 41 / 4) ^ 5 * (20 / 1 - f) ^ 1)
        + 6784 / 18326790421875 * ((f - 41 / 4) ^ 6 * (20 / 1 - f) ^ 0) := by
      unfold bodyForm; ring
    have ha : 0 ≤ f - 41 / 4 := by linarith
    have hb : 0 ≤ 20 / 1 - f := by linarith
    have : 0 ≤ bodyForm f - 1 := by rw [e]; positivity
    linarith

theorem form_body_ge {a f : ℝ} (h : 1 / 2 < f) : 1 ≤ form a f := by
  unfold form
  split
  · exact le_rfl
  · next h2 =>
    first
    | exact bodyForm_ge h.le (by linarith)
    | (rw [if_pos h]; exact bodyForm_ge h.le (by linarith))

/-- With the two coefficients in the other order it would be negative, as the comment says. -/
theorem bodyFormSwapped_neg : bodyFormSwapped 7 < 0 := by norm_num [bodyFormSwapped]

/-- At the upper seam the form factor falls by less than 0.0004 … -/
theorem form_seam_upper : bodyForm 20 - 1 = 318 / 1000000 := by norm_num [bodyForm]

/-- … at the lower one, between surfaces and bodies, it is far from continuous. -/
theorem form_seam_lower : surfForm 1 (1 / 2) < -56 ∧ 3 < bodyForm (1 / 2) := by
  constructor <;> norm_num [surfForm, ff1, bodyForm]

/-- The form factor of a surface is at least 1 up to thirty percent thickness … -/
theorem surfForm_ge_partial {a f : ℝ} (ha : 1 ≤ a) (ha' : a ≤ 2) (h0 : 0 ≤ f) (h1 : f ≤ 3 / 10) :
    1 ≤ surfForm a f := by
  have hff : 1 ≤ ff1 f := by
    have e : ff1 f - 1 =
        0 / 1 * ((f) ^ 0 * (3 / 10 - f) ^ 6)
        + 294206 / 243 * ((f) ^ 1 * (3 / 10 - f) ^ 5)
        + 8430611 / 1215 * ((f) ^ 2 * (3 / 10 - f) ^ 4)
        + 21212086 / 1215 * ((f) ^ 3 * (3 / 10 - f) ^ 3)
        + 8822122 / 1215 * ((f) ^ 4 * (3 / 10 - f) ^ 2)
        + 15200258 / 1215 * ((f) ^ 5 * (3 / 10 - f) ^ 1)
        + 2783933 / 2430 * ((f) ^ 6 * (3 / 10 - f) ^ 0) := by
      unfold ff1; ring
    have ha : 0 ≤ f := by linarith
    have hb : 0 ≤ 3 / 10 - f := by linarith
    have : 0 ≤ ff1 f - 1 := by rw [e]; positivity
    linarith
  unfold surfForm
  nlinarith [mul_nonneg (sub_nonneg.mpr hff) (sub_nonneg.mpr ha'),
    mul_nonneg h0 (sub_nonneg.mpr ha)]

/-- … but negative for thicker ones that still count as surfaces. -/
theorem surfForm_ge_violated :
    ¬ ∀ a f : ℝ, 1 ≤ a → a ≤ 2 → 0 ≤ f → f ≤ 1 / 2 → 0 ≤ form a f := by
  intro h
  have := h 1 (4 / 10) le_rfl (by norm_num) (by norm_num) (by norm_num)
  norm_num [form, surfForm, ff1] at this

/-! ### Laminar flow -/

theorem lamFlow_deriv (x : ℝ) : HasDerivAt lamFlow (dLamFlow x) x := by
  have i := hasDerivAt_id x
  have h := i.mul ((i.mul ((i.const_mul (12234 / 100000000000)).const_sub
    (48087 / 1000000000))).const_add (64164 / 10000000))
  refine hd_congr h (fun t => rfl) ?_
  simp only [Pi.mul_apply, id, dLamFlow]; ring

theorem lamFlow_zero : lamFlow 0 = 0 := by simp [lamFlow]

/-- The laminar share grows with the percentage, from 0 to (just above) 1. -/
theorem lamFlow_mono {x y : ℝ} (hx : 0 ≤ x) (hxy : x < y) (hy : y ≤ 100) : lamFlow x < lamFlow y := by
  have hd : 0 < y - x := by linarith
  have key : lamFlow y - lamFlow x = (y - x) * (64164 / 10000000 + 48087 / 1000000000 * (x + y)
      - 12234 / 100000000000 * (x ^ 2 + x * y + y ^ 2)) := by
    unfold lamFlow; ring
  have : 0 < 64164 / 10000000 + 48087 / 1000000000 * (x + y)
      - 12234 / 100000000000 * (x ^ 2 + x * y + y ^ 2) := by nlinarith
  nlinarith

theorem lamFlow_full : lamFlow 100 = 1 + 17 / 100000 := by norm_num [lamFlow]

/-- Without laminar percentages nothing is laminar; the value is the turbulent one. -/
theorem cfLam_none {x : DragIn n} (h : ¬ laminar x) (j : Fin n) : cfLam x j = x.cf j := by
  unfold cfLam; rw [if_neg h]

theorem cfLam_some {x : DragIn n} (h : laminar x) (j : Fin n) : cfLam x j
    = x.cf j - 1 / 2 * (x.cf j - 1328 / 1000 / √(x.re j)) * (lamFlow (x.low j) + lamFlow (x.up j)) := by
  unfold cfLam; rw [if_pos h]

/-- With laminar flow on both sides at 0 % the value is still the turbulent one. -/
theorem cfLam_zero {x : DragIn n} (j : Fin n) (hu : x.up j = 0) (hl : x.low j = 0) :
    cfLam x j = x.cf j := by
  unfold cfLam
  split
  · rw [hu, hl, lamFlow_zero]; ring
  · rfl

/-- The friction lies between the laminar and the turbulent value while the shares do not exceed
one. -/
theorem cfLam_between {x : DragIn n} (j : Fin n) (hu : 0 ≤ lamFlow (x.up j))
    (hl : 0 ≤ lamFlow (x.low j)) (hs : lamFlow (x.low j) + lamFlow (x.up j) ≤ 2)
    (hc : 1328 / 1000 / √(x.re j) ≤ x.cf j) :
    1328 / 1000 / √(x.re j) ≤ cfLam x j ∧ cfLam x j ≤ x.cf j := by
  unfold cfLam
  split
  · constructor <;> nlinarith
  · exact ⟨hc, le_rfl⟩

/-! ### Drag coefficient -/

/-- Larger areas and larger coefficients give more drag: the drag is nonnegative when the form
factors are. -/
theorem drag_nonneg {a : ℝ} {x : DragIn n} (hw : ∀ j, 0 ≤ x.wet j) (hc : ∀ j, 0 ≤ cfLam x j)
    (hf : ∀ j, 0 ≤ form a (x.fine j)) (hS : 0 < x.area) (he : -1 ≤ x.exc) : 0 ≤ drag a x := by
  unfold drag cdf0
  refine mul_nonneg (mul_nonneg (Finset.sum_nonneg fun j _ => ?_) (by positivity)) (by linarith)
  exact mul_nonneg (mul_nonneg (hw j) (hc j)) (hf j)

theorem drag_comp {a : ℝ} {x : DragIn n} {y : ℝ → DragIn n} {t0 : ℝ} {i : Fin n} {d : ℝ}
    (he : ∀ t, (y t).exc = x.exc) (hS : ∀ t, (y t).area = x.area) 
    (hj : ∀ j, j ≠ i → ∀ᶠ t in nhds t0, (y t).wet j * cfLam (y t) j * form a ((y t).fine j)
      = x.wet j * cfLam x j * form a (x.fine j))
    (hi : HasDerivAt (fun t => (y t).wet i * cfLam (y t) i * form a ((y t).fine i)) d t0) :
    HasDerivAt (fun t => drag a (y t)) ((1 + x.exc) * (1 / x.area) * d) t0 := by
  have hs := HasDerivAt.fun_sum (u := Finset.univ)
    (A := fun j t => (y t).wet j * cfLam (y t) j * form a ((y t).fine j))
    (A' := fun j => if j = i then d else 0) (x := t0) (by
      intro j _
      by_cases h : j = i
      · subst h; simpa using hi
      · rw [if_neg h]
        exact (hasDerivAt_const t0 _).congr_of_eventuallyEq (hj j h))
  have h := (hs.mul_const (1 / x.area)).mul_const (1 + x.exc)
  refine hd_congr h (fun t => ?_) ?_
  · unfold drag cdf0; rw [he, hS]
  · simp; ring

/-- Partials by area, excrescence, wetted areas, fineness and friction coefficients, with or without
laminar flow. -/
theorem drag_partials (a : ℝ) (x : DragIn n) (hS : x.area ≠ 0) (i : Fin n) :
    HasDerivAt (fun t => drag a { x with area := t }) (dDragArea a x) x.area
    ∧ HasDerivAt (fun t => drag a { x with exc := t }) (cdf0 a x) x.exc
    ∧ HasDerivAt (fun t => drag a { x with wet := Function.update x.wet i t }) (dDragWet a x i)
      (x.wet i)
    ∧ (x.fine i ≠ 1 / 2 → x.fine i ≠ 20 →
      HasDerivAt (fun t => drag a { x with fine := Function.update x.fine i t }) (dDragFine a x i)
        (x.fine i))
    ∧ HasDerivAt (fun t => drag a { x with cf := Function.update x.cf i t }) (dDragCf a x i)
      (x.cf i) := by
  refine ⟨?_, ?_, ?_, ?_, ?_⟩
  · have h := (((hasDerivAt_const x.area (1 : ℝ)).fun_div (hasDerivAt_id x.area) hS).const_mul
      (∑ j, x.wet j * cfLam x j * form a (x.fine j))).mul_const (1 + x.exc)
    refine hd_congr h (fun t => rfl) ?_
    unfold dDragArea; simp only [id]; field_simp; ring
  · have h : ∀ t, drag a { x with exc := t } = cdf0 a x * (1 + t) := fun t => rfl
    exact affine_deriv fun t => by rw [h, h]; ring
  · have h := drag_comp (a := a) (x := x) (y := fun t => { x with wet := Function.update x.wet i t })
      (t0 := x.wet i) (i := i) (d := cfLam x i * form a (x.fine i)) (fun _ => rfl) (fun _ => rfl)
      (fun j h => Filter.Eventually.of_forall fun t => by
        simp only [Function.update_of_ne h]; rfl)
      (affine_deriv fun t => by
        have : ∀ t, cfLam { x with wet := Function.update x.wet i t } i = cfLam x i := fun t => rfl
        simp [this]; ring)
    refine hd_congr h (fun t => rfl) ?_
    unfold dDragWet; ring
  · intro h1 h2
    have h := drag_comp (a := a) (x := x)
      (y := fun t => { x with fine := Function.update x.fine i t })
      (t0 := x.fine i) (i := i) (d := x.wet i * cfLam x i * dForm a (x.fine i)) (fun _ => rfl)
      (fun _ => rfl)
      (fun j h => Filter.Eventually.of_forall fun t => by
        simp only [Function.update_of_ne h]; rfl)
      (hd_congr ((form_deriv h1 h2).const_mul (x.wet i * cfLam x i)) (fun t => by
        simp only [Function.update_self]; rfl) rfl)
    refine hd_congr h (fun t => rfl) ?_
    unfold dDragFine; ring
  · have hlam : ∀ t, laminar x → laminar { x with cf := Function.update x.cf i t } := fun t h => h
    have hlam' : ∀ t, ¬ laminar x → ¬ laminar { x with cf := Function.update x.cf i t } := fun t h => h
    by_cases hl : laminar x
    · have h := drag_comp (a := a) (x := x) (y := fun t => { x with cf := Function.update x.cf i t })
        (t0 := x.cf i) (i := i)
        (d := x.wet i * (1 - 1 / 2 * (lamFlow (x.low i) + lamFlow (x.up i))) * form a (x.fine i))
        (fun _ => rfl) (fun _ => rfl)
        (fun j h => Filter.Eventually.of_forall fun t => by
          simp only [cfLam_some (hlam _ hl), cfLam_some hl, Function.update_of_ne h])
        (affine_deriv fun t => by
          simp only [cfLam_some (hlam _ hl), cfLam_some hl, Function.update_self]; ring)
      refine hd_congr h (fun t => rfl) ?_
      unfold dDragCf dDragCf0; rw [if_pos hl]; ring
    · have h := drag_comp (a := a) (x := x) (y := fun t => { x with cf := Function.update x.cf i t })
        (t0 := x.cf i) (i := i) (d := x.wet i * form a (x.fine i))
        (fun _ => rfl) (fun _ => rfl)
        (fun j h => Filter.Eventually.of_forall fun t => by
          simp only [cfLam_none (hlam' _ hl), cfLam_none hl, Function.update_of_ne h])
        (affine_deriv fun t => by
          simp only [cfLam_none (hlam' _ hl), cfLam_none hl, Function.update_self]; ring)
      refine hd_congr h (fun t => rfl) ?_
      unfold dDragCf dDragCf0; rw [if_neg hl]; ring

/-- The partial by the Reynolds numbers with laminar flow. -/
theorem drag_re_partial (a : ℝ) (x : DragIn n) (i : Fin n) (old : ℝ) (hl : laminar x)
    (hr : 0 < x.re i) :
    HasDerivAt (fun t => drag a { x with re := Function.update x.re i t }) (dDragRe a x old i)
      (x.re i) := by
  have hlam : ∀ t, laminar x → laminar { x with re := Function.update x.re i t } := fun t h => h
  have hlam' : ∀ t, ¬ laminar x → ¬ laminar { x with re := Function.update x.re i t } := fun t h => h
  have hs : 0 < √(x.re i) := sqrt_pos.mpr hr
  have hq : HasDerivAt (fun t => 1328 / 1000 / √t) (-(1328 / 1000) * (1 / 2) / x.re i ^ (3 / 2 : ℝ))
      (x.re i) := by
    have h := (hasDerivAt_const (x.re i) (1328 / 1000 : ℝ)).fun_div ((hasDerivAt_id (x.re i)).sqrt
      hr.ne') hs.ne'
    refine hd_congr h (fun t => rfl) ?_
    have e : x.re i ^ (3 / 2 : ℝ) = x.re i * √(x.re i) := by
      rw [(rpow_half hr).1, sqrt_eq_rpow]
    have e2 : √(x.re i) ^ 2 = x.re i := sq_sqrt hr.le
    simp only [id]
    rw [e, e2]; field_simp
    norm_num
  have h := drag_comp (a := a) (x := x) (y := fun t => { x with re := Function.update x.re i t })
    (t0 := x.re i) (i := i)
    (d := x.wet i * (1 / 2 * (-(1328 / 1000) * (1 / 2) / x.re i ^ (3 / 2 : ℝ))
      * (lamFlow (x.low i) + lamFlow (x.up i))) * form a (x.fine i))
    (fun _ => rfl) (fun _ => rfl)
    (fun j h => Filter.Eventually.of_forall fun t => by
      simp only [cfLam_some (hlam _ hl), cfLam_some hl, Function.update_of_ne h])
    (by
      have h1 := (((((hq.const_sub (x.cf i)).const_mul (1 / 2)).mul_const
        (lamFlow (x.low i) + lamFlow (x.up i))).const_sub (x.cf i)).const_mul (x.wet i)).mul_const
        (form a (x.fine i))
      refine hd_congr h1 (fun t => ?_) ?_
      · simp only [cfLam_some (hlam _ hl), cfLam_some hl, Function.update_self]
      · ring)
  refine hd_congr h (fun t => rfl) ?_
  unfold dDragRe dDragCf0; rw [if_pos hl]; ring

/-- Without laminar flow the derivative by the Reynolds numbers is zero, but the component leaves
what an earlier call has written. -/
theorem drag_re_violated :
    ¬ ∀ (a old : ℝ) (x : DragIn 1), 0 < x.re 0 → x.area ≠ 0 →
      HasDerivAt (fun t => drag a { x with re := Function.update x.re 0 t }) (dDragRe a x old 0)
        (x.re 0) := by
  intro h
  set x : DragIn 1 := ⟨fun _ => 1, fun _ => 1, fun _ => 1, fun _ => 1, fun _ => 0, fun _ => 0, 0, 1⟩
    with hx
  have hl : ¬ laminar x := by simp [laminar, hx]
  have h1 := h 1 1 x (by norm_num [hx]) (by norm_num [hx])
  have hc : ∀ t, drag 1 { x with re := Function.update x.re 0 t } = drag 1 x := by
    intro t
    have : ¬ laminar { x with re := Function.update x.re 0 t } := hl
    unfold drag cdf0; simp only [cfLam_none this, cfLam_none hl]
  have h2 : HasDerivAt (fun t => drag 1 { x with re := Function.update x.re 0 t }) 0 (x.re 0) :=
    affine_deriv fun t => by simp only [hc]; ring
  have := h1.unique h2
  unfold dDragRe at this
  rw [if_neg hl] at this
  norm_num at this

/-- The partials by the laminar percentages are right as soon as some flow stays laminar. -/
theorem drag_lam_partial (a : ℝ) (x : DragIn n) (i : Fin n) :
    ((0 < x.up i ∨ (∃ j, j ≠ i ∧ 0 < x.up j) ∨ ∃ j, 0 < x.low j) →
      HasDerivAt (fun t => drag a { x with up := Function.update x.up i t }) (dDragUp a x i)
        (x.up i))
    ∧ ((0 < x.low i ∨ (∃ j, j ≠ i ∧ 0 < x.low j) ∨ ∃ j, 0 < x.up j) →
      HasDerivAt (fun t => drag a { x with low := Function.update x.low i t }) (dDragLow a x i)
        (x.low i)) := by
  constructor
  · intro h
    have hev : ∀ᶠ t in nhds (x.up i), laminar { x with up := Function.update x.up i t } := by
      rcases h with h | ⟨j, hj, h⟩ | ⟨j, h⟩
      · filter_upwards [lt_mem_nhds h] with t ht
        exact Or.inl ⟨i, by simpa using ht⟩
      · exact Filter.Eventually.of_forall fun t =>
          Or.inl ⟨j, by simpa [Function.update_of_ne hj] using h⟩
      · exact Filter.Eventually.of_forall fun t => Or.inr ⟨j, h⟩
    have hx : laminar x := by
      have := hev.self_of_nhds
      simpa using this
    have h1 := drag_comp (a := a) (x := x) (y := fun t => { x with up := Function.update x.up i t })
      (t0 := x.up i) (i := i)
      (d := x.wet i * (lamLam x i * dLamFlow (x.up i)) * form a (x.fine i))
      (fun _ => rfl) (fun _ => rfl)
      (fun j h => by
        filter_upwards [hev] with t ht
        simp only [cfLam_some ht, cfLam_some hx, Function.update_of_ne h])
      (by
        have h2 := ((((((lamFlow_deriv (x.up i)).const_add (lamFlow (x.low i))).const_mul
          (1 / 2 * (x.cf i - 1328 / 1000 / √(x.re i)))).const_sub (x.cf i)).const_mul
          (x.wet i)).mul_const (form a (x.fine i)))
        have h3 := h2.congr_of_eventuallyEq (f₁ := fun t =>
          x.wet i * cfLam { x with up := Function.update x.up i t } i * form a (x.fine i)) (by
            filter_upwards [hev] with t ht
            simp only [cfLam_some ht, Function.update_self])
        refine hd_congr h3 (fun t => rfl) ?_
        unfold lamLam; ring)
    refine hd_congr h1 (fun t => rfl) ?_
    unfold dDragUp dDragCf0; ring
  · intro h
    have hev : ∀ᶠ t in nhds (x.low i), laminar { x with low := Function.update x.low i t } := by
      rcases h with h | ⟨j, hj, h⟩ | ⟨j, h⟩
      · filter_upwards [lt_mem_nhds h] with t ht
        exact Or.inr ⟨i, by simpa using ht⟩
      · exact Filter.Eventually.of_forall fun t =>
          Or.inr ⟨j, by simpa [Function.update_of_ne hj] using h⟩
      · exact Filter.Eventually.of_forall fun t => Or.inl ⟨j, h⟩
    have hx : laminar x := by
      have := hev.self_of_nhds
      simpa using this
    have h1 := drag_comp (a := a) (x := x)
      (y := fun t => { x with low := Function.update x.low i t })
      (t0 := x.low i) (i := i)
      (d := x.wet i * (lamLam x i * dLamFlow (x.low i)) * form a (x.fine i))
      (fun _ => rfl) (fun _ => rfl)
      (fun j h => by
        filter_upwards [hev] with t ht
        simp only [cfLam_some ht, cfLam_some hx, Function.update_of_ne h])
      (by
        have h2 := ((((((lamFlow_deriv (x.low i)).add_const (lamFlow (x.up i))).const_mul
          (1 / 2 * (x.cf i - 1328 / 1000 / √(x.re i)))).const_sub (x.cf i)).const_mul
          (x.wet i)).mul_const (form a (x.fine i)))
        have h3 := h2.congr_of_eventuallyEq (f₁ := fun t =>
          x.wet i * cfLam { x with low := Function.update x.low i t } i * form a (x.fine i)) (by
            filter_upwards [hev] with t ht
            simp only [cfLam_some ht, Function.update_self])
        refine hd_congr h3 (fun t => rfl) ?_
        unfold lamLam; ring)
    refine hd_congr h1 (fun t => rfl) ?_
    unfold dDragLow dDragCf0; ring

/-- A component that is fully turbulent in an aircraft without laminar flow: the coded partial is
not zero although percentages below zero change nothing. -/
theorem drag_lam_violated :
    ¬ ∀ (a : ℝ) (x : DragIn 1), 0 < x.re 0 → x.area ≠ 0 →
      HasDerivAt (fun t => drag a { x with up := Function.update x.up 0 t }) (dDragUp a x 0)
        (x.up 0) := by
  intro h
  set x : DragIn 1 := ⟨fun _ => 3, fun _ => 1, fun _ => 20, fun _ => 1, fun _ => -1, fun _ => 0, 0, 1⟩
    with hx
  have h1 := h 1 x (by norm_num [hx]) (by norm_num [hx])
  have h2 : HasDerivAt (fun t => drag 1 { x with up := Function.update x.up 0 t }) 0 (x.up 0) := by
    refine (hasDerivAt_const (x.up 0) (drag 1 x)).congr_of_eventuallyEq ?_
    have hu : x.up 0 < 0 := by norm_num [hx]
    filter_upwards [gt_mem_nhds hu] with t ht
    have hl : ¬ laminar { x with up := Function.update x.up 0 t } := by
      rintro (⟨j, hj⟩ | ⟨j, hj⟩)
      · have : j = 0 := Subsingleton.elim _ _
        subst this
        simp at hj; linarith
      · simp [hx] at hj
    have hl' : ¬ laminar x := by
      rintro (⟨j, hj⟩ | ⟨j, hj⟩)
      · simp [hx] at hj; linarith
      · simp [hx] at hj
    unfold drag cdf0; simp only [cfLam_none hl, cfLam_none hl']
  have := h1.unique h2
  norm_num [hx, dDragUp, dDragCf0, lamLam, dLamFlow, form] at this

/-- At zero percent the coded partial is that of the increasing side, if all other percentages are
zero as well. -/
theorem drag_lam_zero (a : ℝ) (x : DragIn n) (i : Fin n) (hu : ∀ j, x.up j = 0)
    (hl : ∀ j, x.low j = 0) :
    HasDerivWithinAt (fun t => drag a { x with up := Function.update x.up i t }) (dDragUp a x i)
      (Set.Ici 0) 0 := by
  -- the same drag with laminar flow on
  have key : ∀ t, 0 ≤ t → drag a { x with up := Function.update x.up i t }
      = (∑ j, x.wet j * (x.cf j - 1 / 2 * (x.cf j - 1328 / 1000 / √(x.re j))
        * (0 + lamFlow (Function.update x.up i t j))) * form a (x.fine j)) * (1 / x.area)
        * (1 + x.exc) := by
    intro t ht
    unfold drag cdf0
    congr 2
    refine Finset.sum_congr rfl fun j _ => ?_
    congr 2
    rcases ht.lt_or_eq with h | h
    · rw [cfLam_some (Or.inl ⟨i, by simpa using h⟩)]
      simp only [hl j, lamFlow_zero]
    · have e : Function.update x.up i t = x.up := by
        rw [← h, ← hu i]; simp
      have hn : ¬ laminar { x with up := Function.update x.up i t } := by
        rw [e]; rintro (⟨j, hj⟩ | ⟨j, hj⟩)
        · simp [hu] at hj
        · simp [hl] at hj
      rw [cfLam_none hn, e, hu j, lamFlow_zero]; ring
  have h0 : x.up i = 0 := hu i
  have hs := partialAt_sum (fun j t => x.wet j * (x.cf j - 1 / 2 * (x.cf j - 1328 / 1000 / √(x.re j))
        * (0 + lamFlow t)) * form a (x.fine j)) x.up i
    (hd_congr ((((((lamFlow_deriv (x.up i)).const_add 0).const_mul
      (1 / 2 * (x.cf i - 1328 / 1000 / √(x.re i)))).const_sub (x.cf i)).const_mul
      (x.wet i)).mul_const (form a (x.fine i))) (fun t => rfl) rfl)
  have h1 := (HasDerivAt.mul_const (HasDerivAt.mul_const hs (1 / x.area)) (1 + x.exc))
  rw [h0] at h1
  have h2 := h1.hasDerivWithinAt (s := Set.Ici 0)
  have h3 := h2.congr (f₁ := fun t => drag a { x with up := Function.update x.up i t })
    (fun t ht => key t ht) (key 0 le_rfl)
  have e : dDragUp a x i = x.wet i * -(1 / 2 * (x.cf i - 1328 / 1000 / √(x.re i)) * dLamFlow 0)
      * form a (x.fine i) * (1 / x.area) * (1 + x.exc) := by
    unfold dDragUp dDragCf0 lamLam; rw [h0]; ring
  rw [e]; exact h3

/-- Sea level pressure in pounds per square foot; the constant of the wall temperature. -/
theorem constants : slp = 21162096 / 10000 ∧ combK = 36745224 / 10 ^ 13 := by
  constructor
  · norm_num [slp]
  · norm_num [combK]

end Verif.SkinFriction
