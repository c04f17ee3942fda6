import Verif.Model.LiftDrag
import Mathlib.Analysis.SpecialFunctions.Pow.Deriv
import Mathlib.Tactic.FieldSimp
import Mathlib.Tactic.Ring
import Mathlib.Tactic.Linarith
import Mathlib.Tactic.FinCases

/-! ## C95: lift dependent drag and its derivatives -/

namespace Verif.LiftDrag
open Real Filter Topology

/-! ### The interpolation of the code -/

theorem edge_curve (A1 A2 : ℝ) {T1 T2 : Tab} {x y A : ℝ} (h1 : T1.DiffAt x y) (h2 : T2.DiffAt x y)
    (hD : (A - A1) * T1.val x y - (A - A2) * T2.val x y ≠ 0) :
    Curve3 (fun x y A => (edgeInterp A1 A2 T1 T2 x y A).v) x y A
      (edgeInterp A1 A2 T1 T2 x y A).dm (edgeInterp A1 A2 T1 T2 x y A).dcl
      (edgeInterp A1 A2 T1 T2 x y A).da := by
  intro f g h f' g' h' t hf hg hh df dg dh
  have c1 := h1.curve f g f' g' t hf hg df dg
  have c2 := h2.curve f g f' g' t hf hg df dg
  have hD' : (h t - A1) * T1.val (f t) (g t) - (h t - A2) * T2.val (f t) (g t) ≠ 0 := by
    rw [hf, hg, hh]; exact hD
  have q := ((c1.const_mul 2).mul c2).div
    (((dh.sub_const A1).mul c1).sub ((dh.sub_const A2).mul c2)) hD'
  refine hd_congr q (fun s => ?_) ?_
  · simp only [edgeInterp, edge, den, Pi.mul_apply, Pi.sub_apply, Pi.div_apply]
    rw [mul_one_div]
  · simp only [edgeInterp, edgeA, edgeD, den, Pi.mul_apply, Pi.sub_apply]
    rw [hf, hg, hh]
    generalize T1.val x y = F1 at *
    generalize T2.val x y = F2 at *
    field_simp
    ring

/-- The derivative of the edge interpolation with respect to `A` is that of its value. -/
theorem edge_A {A1 A2 F1 F2 A : ℝ} (hD : (A - A1) * F1 - (A - A2) * F2 ≠ 0) :
    HasDerivAt (fun a => edge A1 A2 F1 F2 a) (edgeA A1 A2 F1 F2 A) A := by
  have q := (hasDerivAt_const A (2 * F1 * F2)).div
    ((((hasDerivAt_id A).sub_const A1).mul_const F1).sub
      (((hasDerivAt_id A).sub_const A2).mul_const F2)) hD
  refine hd_congr q (fun s => ?_) ?_
  · simp only [edge, den, Pi.sub_apply, Pi.div_apply, id]
    rw [mul_one_div]
  · simp only [edgeA, den, Pi.sub_apply, id]
    field_simp
    ring

theorem inner_curve (W : Weights) (g : Fin 5 → ℝ) {T : Fin 5 → Tab} {x y A : ℝ}
    (hT : ∀ i, (T i).DiffAt x y)
    (hW : ∀ i, HasDerivAt (fun a => W.w g a i) (W.dw g A i) A) :
    Curve3 (fun x y A => (innerInterp W g T x y A).v) x y A
      (innerInterp W g T x y A).dm (innerInterp W g T x y A).dcl
      (innerInterp W g T x y A).da := by
  intro f k h f' k' h' t hf hk hh df dk dh
  have c : ∀ i ∈ (Finset.univ : Finset (Fin 5)),
      HasDerivAt (fun s => W.w g (h s) i * (T i).val (f s) (k s))
        (W.dw g A i * h' * (T i).val x y
          + W.w g A i * ((T i).d1 x y * f' + (T i).d2 x y * k')) t := by
    intro i _
    have w : HasDerivAt (fun s => W.w g (h s) i) (W.dw g A i * h') t := by
      have := hW i
      rw [← hh] at this ⊢
      exact this.comp t dh
    have := w.mul ((hT i).curve f k f' k' t hf hk df dk)
    refine hd_congr this (fun s => rfl) ?_
    rw [hf, hk, hh]
  refine hd_congr (HasDerivAt.fun_sum c) (fun s => rfl) ?_
  simp only [innerInterp, Finset.sum_add_distrib, Finset.sum_mul, mul_add]
  have e1 : ∀ i, W.dw g A i * h' * (T i).val x y = W.dw g A i * (T i).val x y * h' :=
    fun i => by ring
  simp only [e1, mul_assoc]
  ring

/-! ### The choice of the tables -/

/-- The point is off the values at which the code changes tables, the tables and the weights are
differentiable there with the derivatives which they return, and the denominators of the edge
interpolations are not zero. -/
structure Regular (T : Tabs) (W : Weights) (x y A : ℝ) : Prop where
  hx : x ≠ 75 / 1000
  hsub : x < 75 / 1000 → A ≠ 1 / 2 ∧ A ≠ 6
  hsup : 75 / 1000 < x → A ≠ 7 / 10 ∧ A ≠ 14 / 10 ∧ A ≠ 2
  ar05 : T.ar05.DiffAt x y
  ar1 : T.ar1.DiffAt x y
  ar2 : T.ar2.DiffAt x y
  ar4 : T.ar4.DiffAt x y
  ar6 : T.ar6.DiffAt x y
  s07 : T.s07.DiffAt x y
  s08 : T.s08.DiffAt x y
  s10 : T.s10.DiffAt x y
  s12 : T.s12.DiffAt x y
  s14 : T.s14.DiffAt x y
  s16 : T.s16.DiffAt x y
  s18 : T.s18.DiffAt x y
  s20 : T.s20.DiffAt x y
  wsub : 1 / 2 < A → A < 6 → ∀ i, HasDerivAt (fun a => W.w gridSub a i) (W.dw gridSub A i) A
  wlow : 7 / 10 < A → A < 14 / 10 →
    ∀ i, HasDerivAt (fun a => W.w gridLow a i) (W.dw gridLow A i) A
  whigh : 14 / 10 < A → A < 2 → ∀ i, HasDerivAt (fun a => W.w gridHigh a i) (W.dw gridHigh A i) A
  d05 : x < 75 / 1000 → A < 1 / 2 → (A - 1 / 2) * T.ar05.val x y - (A - 1) * T.ar1.val x y ≠ 0
  d6 : x < 75 / 1000 → 6 < A → (A - 4) * T.ar4.val x y - (A - 6) * T.ar6.val x y ≠ 0
  d07 : 75 / 1000 < x → A < 7 / 10 →
    (A - 7 / 10) * T.s07.val x y - (A - 8 / 10) * T.s08.val x y ≠ 0
  d2 : 75 / 1000 < x → 2 < A → (A - 18 / 10) * T.s18.val x y - (A - 2) * T.s20.val x y ≠ 0

theorem curve_of_eventually {F : ℝ → ℝ → ℝ → Fc} {G : ℝ → ℝ → ℝ → Fc} {x y A : ℝ}
    (P : ℝ → ℝ → Prop) (hP : ∀ᶠ p : ℝ × ℝ in 𝓝 (x, A), P p.1 p.2)
    (hFG : ∀ x y A, P x A → F x y A = G x y A)
    (h : Curve3 (fun x y A => (G x y A).v) x y A (G x y A).dm (G x y A).dcl (G x y A).da) :
    Curve3 (fun x y A => (F x y A).v) x y A (F x y A).dm (F x y A).dcl (F x y A).da := by
  have h0 : P x A := hP.self_of_nhds
  intro f g k f' g' k' t hf hg hk df dg dk
  have q := h f g k f' g' k' t hf hg hk df dg dk
  rw [hFG x y A h0]
  refine q.congr_of_eventuallyEq ?_
  have c : Tendsto (fun s => (f s, k s)) (𝓝 t) (𝓝 (x, A)) := by
    rw [← hf, ← hk]
    exact (df.continuousAt.prodMk_nhds dk.continuousAt)
  filter_upwards [c.eventually hP] with s hs
  rw [hFG _ _ _ hs]

theorem ev_lt {x A : ℝ} {c : ℝ} (h : x < c) : ∀ᶠ p : ℝ × ℝ in 𝓝 (x, A), p.1 < c :=
  (continuous_fst.tendsto (x, A)).eventually_lt_const h

theorem ev_gt {x A : ℝ} {c : ℝ} (h : c < x) : ∀ᶠ p : ℝ × ℝ in 𝓝 (x, A), c < p.1 :=
  (continuous_fst.tendsto (x, A)).eventually_const_lt h

theorem ev_lt' {x A : ℝ} {c : ℝ} (h : A < c) : ∀ᶠ p : ℝ × ℝ in 𝓝 (x, A), p.2 < c :=
  (continuous_snd.tendsto (x, A)).eventually_lt_const h

theorem ev_gt' {x A : ℝ} {c : ℝ} (h : c < A) : ∀ᶠ p : ℝ × ℝ in 𝓝 (x, A), c < p.2 :=
  (continuous_snd.tendsto (x, A)).eventually_const_lt h

/-- The three derivatives stored by `compute` are those of the interpolated value, whatever branch
is taken. -/
theorem fcdp_curve {T : Tabs} {W : Weights} {x y A : ℝ} (h : Regular T W x y A) :
    Curve3 (fun x y A => (fcdp T W x y A).v) x y A
      (fcdp T W x y A).dm (fcdp T W x y A).dcl (fcdp T W x y A).da := by
  rcases lt_or_gt_of_ne h.hx with hx | hx
  · obtain ⟨n1, n2⟩ := h.hsub hx
    rcases lt_or_gt_of_ne n1 with a | a
    · refine curve_of_eventually (G := fun x y A => edgeInterp (1 / 2) 1 T.ar05 T.ar1 x y A)
        (fun x A => x < 75 / 1000 ∧ A < 1 / 2) ((ev_lt hx).and (ev_lt' a)) ?_
        (edge_curve _ _ h.ar05 h.ar1 (h.d05 hx a))
      rintro x y A ⟨p, q⟩
      rw [fcdp, if_pos p.le, if_pos q]
    · rcases lt_or_gt_of_ne n2 with b | b
      · refine curve_of_eventually (G := fun x y A => innerInterp W gridSub
            ![T.ar05, T.ar1, T.ar2, T.ar4, T.ar6] x y A)
          (fun x A => x < 75 / 1000 ∧ 1 / 2 < A ∧ A < 6)
          ((ev_lt hx).and ((ev_gt' a).and (ev_lt' b))) ?_
          (inner_curve _ _ ?_ (h.wsub a b))
        · rintro x y A ⟨p, q, r⟩
          rw [fcdp, if_pos p.le, if_neg q.not_gt, if_pos r]
        · intro i; fin_cases i
          exacts [h.ar05, h.ar1, h.ar2, h.ar4, h.ar6]
      · refine curve_of_eventually (G := fun x y A => edgeInterp 4 6 T.ar4 T.ar6 x y A)
          (fun x A => x < 75 / 1000 ∧ 6 < A) ((ev_lt hx).and (ev_gt' b)) ?_
          (edge_curve _ _ h.ar4 h.ar6 (h.d6 hx b))
        rintro x y A ⟨p, q⟩
        rw [fcdp, if_pos p.le, if_neg (by linarith), if_neg (by linarith)]
  · obtain ⟨n1, n2, n3⟩ := h.hsup hx
    rcases lt_or_gt_of_ne n1 with a | a
    · refine curve_of_eventually
        (G := fun x y A => edgeInterp (7 / 10) (8 / 10) T.s07 T.s08 x y A)
        (fun x A => 75 / 1000 < x ∧ A < 7 / 10) ((ev_gt hx).and (ev_lt' a)) ?_
        (edge_curve _ _ h.s07 h.s08 (h.d07 hx a))
      rintro x y A ⟨p, q⟩
      rw [fcdp, if_neg p.not_ge, if_pos q]
    · rcases lt_or_gt_of_ne n2 with b | b
      · refine curve_of_eventually (G := fun x y A => innerInterp W gridLow
            ![T.s07, T.s08, T.s10, T.s12, T.s14] x y A)
          (fun x A => 75 / 1000 < x ∧ 7 / 10 < A ∧ A < 14 / 10)
          ((ev_gt hx).and ((ev_gt' a).and (ev_lt' b))) ?_
          (inner_curve _ _ ?_ (h.wlow a b))
        · rintro x y A ⟨p, q, r⟩
          rw [fcdp, if_neg p.not_ge, if_neg q.not_gt, if_pos r.le]
        · intro i; fin_cases i
          exacts [h.s07, h.s08, h.s10, h.s12, h.s14]
      · rcases lt_or_gt_of_ne n3 with c | c
        · refine curve_of_eventually (G := fun x y A => innerInterp W gridHigh
              ![T.s12, T.s14, T.s16, T.s18, T.s20] x y A)
            (fun x A => 75 / 1000 < x ∧ 14 / 10 < A ∧ A < 2)
            ((ev_gt hx).and ((ev_gt' b).and (ev_lt' c))) ?_
            (inner_curve _ _ ?_ (h.whigh b c))
          · rintro x y A ⟨p, q, r⟩
            rw [fcdp, if_neg p.not_ge, if_neg (by linarith), if_neg q.not_ge, if_pos r.le]
          · intro i; fin_cases i
            exacts [h.s12, h.s14, h.s16, h.s18, h.s20]
        · refine curve_of_eventually
            (G := fun x y A => edgeInterp (18 / 10) 2 T.s18 T.s20 x y A)
            (fun x A => 75 / 1000 < x ∧ 2 < A) ((ev_gt hx).and (ev_gt' c)) ?_
            (edge_curve _ _ h.s18 h.s20 (h.d2 hx c))
          rintro x y A ⟨p, q⟩
          rw [fcdp, if_neg p.not_ge, if_neg (by linarith), if_neg (by linarith),
            if_neg (by linarith)]

/-! ### The partial derivatives of the component -/

/-- The inputs for which the component makes sense: nothing it divides by is zero and the thickness
is positive. -/
structure Flyable (i : In) : Prop where
  mach : i.mach ≠ 0
  P : i.P ≠ 0
  sref : i.sref ≠ 0
  gamma : i.gamma ≠ 0
  AR : i.AR ≠ 0
  TC : 0 < i.TC

/-- The value before the clamp with `A / AR` cancelled. -/
theorem raw_eq (T : Tabs) (W : Weights) (i : In) (h : i.AR ≠ 0) :
    raw T W i = (fc T W i).v * dFac i := by
  unfold raw dFac bigA
  field_simp

theorem rpow_deriv {x : ℝ} (hx : 0 < x) :
    HasDerivAt (fun t : ℝ => t ^ (1 / 3 : ℝ)) (1 / 3 * x ^ (-2 / 3 : ℝ)) x := by
  have := Real.hasDerivAt_rpow_const (x := x) (p := (1 / 3 : ℝ)) (Or.inl hx.ne')
  refine hd_congr this (fun t => rfl) ?_
  norm_num

theorem raw_deriv {T : Tabs} {W : Weights} {i : In} (h : Flyable i)
    (hr : Regular T W (delm i) (delcl i) (bigA i)) (w : Wrt) :
    HasDerivAt (fun t => raw T W (i.set w t)) (rawPart T W i w) (i.get w) := by
  obtain ⟨hm, hP, hS, hg, hAR, hTC⟩ := h
  have C := fcdp_curve hr
  cases w
  case mach =>
    have q := C (fun t => delm (i.set .mach t)) (fun t => delcl (i.set .mach t))
      (fun t => bigA (i.set .mach t)) 1 (-4 * i.lift / (i.sref * i.gamma * i.P * i.mach ^ 3)) 0
      i.mach rfl rfl rfl ((hasDerivAt_id _).sub_const _) ?_ (hasDerivAt_const _ (bigA i))
    · refine hd_congr (q.mul_const (dFac i)) (fun t => ?_) ?_
      · rw [raw_eq T W (i.set .mach t) hAR]; rfl
      · simp only [rawPart, fc]; ring
    · have e := ((hasDerivAt_const i.mach (2 * i.lift)).div
        (((hasDerivAt_id i.mach).pow 2).const_mul (i.sref * i.gamma * i.P))
        (by simp only [Pi.pow_apply, id]; positivity)).sub_const i.cldes
      refine hd_congr e (fun t => rfl) ?_
      simp only [Pi.pow_apply, id]
      field_simp
      ring
  case lift =>
    have q := C (fun t => delm (i.set .lift t)) (fun t => delcl (i.set .lift t))
      (fun t => bigA (i.set .lift t)) 0 (2 / (i.sref * i.gamma * i.P * i.mach ^ 2)) 0
      i.lift rfl rfl rfl (hasDerivAt_const _ (delm i)) ?_ (hasDerivAt_const _ (bigA i))
    · refine hd_congr (q.mul_const (dFac i)) (fun t => ?_) ?_
      · rw [raw_eq T W (i.set .lift t) hAR]; rfl
      · simp only [rawPart, fc]; ring
    · refine affine_deriv fun t => ?_
      simp only [delcl, cl, In.set]; ring
  case P =>
    have q := C (fun t => delm (i.set .P t)) (fun t => delcl (i.set .P t))
      (fun t => bigA (i.set .P t)) 0
      (-2 * i.lift / (i.sref * i.gamma * i.P * i.P * i.mach ^ 2)) 0
      i.P rfl rfl rfl (hasDerivAt_const _ (delm i)) ?_ (hasDerivAt_const _ (bigA i))
    · refine hd_congr (q.mul_const (dFac i)) (fun t => ?_) ?_
      · rw [raw_eq T W (i.set .P t) hAR]; rfl
      · simp only [rawPart, fc]; ring
    · have e := ((hasDerivAt_const i.P (2 * i.lift)).div
        (((hasDerivAt_id i.P).const_mul (i.sref * i.gamma)).mul_const (i.mach ^ 2))
        (by simp only [id]; positivity)).sub_const i.cldes
      refine hd_congr e (fun t => rfl) ?_
      simp only [id]
      field_simp
      ring
  case sref =>
    have q := C (fun t => delm (i.set .sref t)) (fun t => delcl (i.set .sref t))
      (fun t => bigA (i.set .sref t)) 0
      (-2 * i.lift / (i.sref * i.sref * i.gamma * i.P * i.mach ^ 2)) 0
      i.sref rfl rfl rfl (hasDerivAt_const _ (delm i)) ?_ (hasDerivAt_const _ (bigA i))
    · refine hd_congr (q.mul_const (dFac i)) (fun t => ?_) ?_
      · rw [raw_eq T W (i.set .sref t) hAR]; rfl
      · simp only [rawPart, fc]; ring
    · have e := ((hasDerivAt_const i.sref (2 * i.lift)).div
        ((((hasDerivAt_id i.sref).mul_const i.gamma).mul_const i.P).mul_const (i.mach ^ 2))
        (by simp only [id]; positivity)).sub_const i.cldes
      refine hd_congr e (fun t => rfl) ?_
      simp only [id]
      field_simp
      ring
  case AR =>
    have q := C (fun t => delm (i.set .AR t)) (fun t => delcl (i.set .AR t))
      (fun t => bigA (i.set .AR t)) 0 0 (i.TC ^ (1 / 3 : ℝ))
      i.AR rfl rfl rfl (hasDerivAt_const _ (delm i)) (hasDerivAt_const _ (delcl i)) ?_
    · have q' := hd_congr (q.mul_const (dFac i)) (fun t => rfl)
        (show rawPart T W i .AR = _ by simp only [rawPart, fc]; ring)
      refine q'.congr_of_eventuallyEq ?_
      filter_upwards [eventually_ne_nhds hAR] with t ht
      rw [raw_eq _ _ _ (show (i.set .AR t).AR ≠ 0 from ht)]; rfl
    · refine affine_deriv fun t => ?_
      simp only [bigA, In.set]; ring
  case TC =>
    have d := rpow_deriv hTC
    have q := C (fun t => delm (i.set .TC t)) (fun t => delcl (i.set .TC t))
      (fun t => bigA (i.set .TC t)) 0 0 (1 / 3 * i.AR * i.TC ^ (-2 / 3 : ℝ))
      i.TC rfl rfl rfl (hasDerivAt_const _ (delm i)) (hasDerivAt_const _ (delcl i)) ?_
    · refine hd_congr (q.mul (d.const_mul (1 + i.cam / 10))) (fun t => ?_) ?_
      · rw [raw_eq T W (i.set .TC t) hAR]; rfl
      · simp only [rawPart, fc, dFac]
        show _ = _ * ((1 + i.cam / 10) * i.TC ^ (1 / 3 : ℝ))
          + (fcdp T W (delm i) (delcl i) (bigA i)).v * _
        ring
    · exact hd_congr (d.const_mul i.AR) (fun t => rfl) (by ring)
  case cam =>
    refine affine_deriv fun t => ?_
    rw [raw_eq T W (i.set .cam t) hAR, raw_eq T W (i.set .cam 0) hAR]
    show (fc T W i).v * ((1 + t / 10) * i.TC ^ (1 / 3 : ℝ)) = _ * t
      + (fc T W i).v * ((1 + 0 / 10) * i.TC ^ (1 / 3 : ℝ))
    simp only [rawPart]; ring
  case sweep =>
    refine affine_deriv fun t => ?_
    show raw T W i = _ * t + raw T W i
    simp only [rawPart]; ring
  case cldes =>
    have q := C (fun t => delm (i.set .cldes t)) (fun t => delcl (i.set .cldes t))
      (fun t => bigA (i.set .cldes t)) 0 (-1) 0
      i.cldes rfl rfl rfl (hasDerivAt_const _ (delm i)) ?_ (hasDerivAt_const _ (bigA i))
    · refine hd_congr (q.mul_const (dFac i)) (fun t => ?_) ?_
      · rw [raw_eq T W (i.set .cldes t) hAR]; rfl
      · simp only [rawPart, fc]; ring
    · refine affine_deriv fun t => ?_
      simp only [delcl, cl, In.set]; ring
  case mdes =>
    have q := C (fun t => delm (i.set .mdes t)) (fun t => delcl (i.set .mdes t))
      (fun t => bigA (i.set .mdes t)) (-1) 0 0
      i.mdes rfl rfl rfl ?_ (hasDerivAt_const _ (delcl i)) (hasDerivAt_const _ (bigA i))
    · refine hd_congr (q.mul_const (dFac i)) (fun t => ?_) ?_
      · rw [raw_eq T W (i.set .mdes t) hAR]; rfl
      · simp only [rawPart, fc]; ring
    · refine affine_deriv fun t => ?_
      simp only [delm, In.set]; ring

theorem set_get (i : In) (w : Wrt) : i.set w (i.get w) = i := by cases w <;> rfl

/-- Every one of the ten partial derivatives is that of the output, on either side of the clamp. -/
theorem partials_partial {T : Tabs} {W : Weights} {i : In} (h : Flyable i)
    (hr : Regular T W (delm i) (delcl i) (bigA i)) (h0 : raw T W i ≠ 0) (w : Wrt) :
    HasDerivAt (fun t => drag T W (i.set w t)) (part T W i w) (i.get w) := by
  have d := raw_deriv h hr w
  have c := d.continuousAt
  rcases lt_or_gt_of_ne h0 with n | n
  · rw [part, if_pos n]
    refine (hasDerivAt_const (i.get w) (0 : ℝ)).congr_of_eventuallyEq ?_
    have : raw T W (i.set w (i.get w)) < 0 := by rw [set_get]; exact n
    filter_upwards [c.eventually_lt_const this] with t ht
    rw [drag, if_pos ht]
  · rw [part, if_neg n.not_gt]
    refine d.congr_of_eventuallyEq ?_
    have : 0 < raw T W (i.set w (i.get w)) := by rw [set_get]; exact n
    filter_upwards [c.eventually_const_lt this] with t ht
    rw [drag, if_neg ht.not_gt]

/-- The drag coefficient is never negative. -/
theorem drag_nonneg (T : Tabs) (W : Weights) (i : In) : 0 ≤ drag T W i := by
  rw [drag]; split
  · exact le_rfl
  · exact le_of_not_gt ‹_›

/-- The sweep has no influence. -/
theorem drag_sweep (T : Tabs) (W : Weights) (i : In) (s : ℝ) :
    drag T W { i with sweep := s } = drag T W i := rfl

/-! ### Continuity where the tables change -/

/-- The weights at a grid point give the tabulated value. -/
def Weights.Hits (W : Weights) (g : Fin 5 → ℝ) (j : Fin 5) : Prop :=
  ∀ i, W.w g (g j) i = if i = j then 1 else 0

theorem inner_hit {W : Weights} {g : Fin 5 → ℝ} {j : Fin 5} (h : W.Hits g j) (T : Fin 5 → Tab)
    (x y : ℝ) : (innerInterp W g T x y (g j)).v = (T j).val x y := by
  show ∑ i, W.w g (g j) i * (T i).val x y = _
  rw [Finset.sum_congr rfl fun i _ => by rw [h i]]
  simp

/-- At its lower table the edge interpolation is `2 / (A2 - A1)` times the tabulated value. -/
theorem edge_lower {A1 A2 F1 F2 : ℝ} (h : A1 ≠ A2) (h2 : F2 ≠ 0) :
    edge A1 A2 F1 F2 A1 = 2 / (A2 - A1) * F1 := by
  have : A2 - A1 ≠ 0 := sub_ne_zero.2 h.symm
  have h' : (A1 - A1) * F1 - (A1 - A2) * F2 = (A2 - A1) * F2 := by ring
  rw [edge, den, h']
  field_simp

/-- At its upper table the edge interpolation is `2 / (A2 - A1)` times the tabulated value. -/
theorem edge_upper {A1 A2 F1 F2 : ℝ} (h : A1 ≠ A2) (h1 : F1 ≠ 0) :
    edge A1 A2 F1 F2 A2 = 2 / (A2 - A1) * F2 := by
  have : A2 - A1 ≠ 0 := sub_ne_zero.2 h.symm
  have h' : (A2 - A1) * F1 - (A2 - A2) * F2 = (A2 - A1) * F1 := by ring
  rw [edge, den, h']
  field_simp

/-- The edge interpolation meets its tables only if they are two apart. -/
theorem edge_meets_iff {A1 A2 F1 F2 : ℝ} (h : A1 ≠ A2) (h1 : F1 ≠ 0) (h2 : F2 ≠ 0) :
    (edge A1 A2 F1 F2 A1 = F1 ∧ edge A1 A2 F1 F2 A2 = F2) ↔ A2 - A1 = 2 := by
  have hd : A2 - A1 ≠ 0 := sub_ne_zero.2 h.symm
  rw [edge_lower h h2, edge_upper h h1]
  constructor
  · rintro ⟨a, _⟩
    have : 2 / (A2 - A1) = 1 := mul_right_cancel₀ h1 (by rw [a, one_mul])
    rw [div_eq_one_iff_eq hd] at this
    exact this.symm
  · intro a
    rw [a]; norm_num

theorem edge_tendsto {A1 A2 F1 F2 A : ℝ} (hD : (A - A1) * F1 - (A - A2) * F2 ≠ 0) :
    Tendsto (fun a => edge A1 A2 F1 F2 a) (𝓝 A) (𝓝 (edge A1 A2 F1 F2 A)) :=
  (edge_A hD).continuousAt

/-- The interpolated value is continuous in `A` where the subsonic tables end at the top. -/
theorem fcdp_continuous_six_partial {T : Tabs} {W : Weights} {x y : ℝ} (hx : x ≤ 75 / 1000)
    (hW : W.Hits gridSub 4) (hc : ∀ i, ContinuousAt (fun a => W.w gridSub a i) 6)
    (h4 : T.ar4.val x y ≠ 0) : ContinuousAt (fun A => (fcdp T W x y A).v) 6 := by
  have h6 : (fcdp T W x y 6).v = T.ar6.val x y := by
    rw [fcdp, if_pos hx, if_neg (by norm_num), if_neg (by norm_num)]
    show edge _ _ _ _ _ = _
    rw [edge_upper (by norm_num) h4]; norm_num
  rw [continuousAt_iff_continuous_left'_right']
  constructor
  · show Tendsto _ _ (𝓝 (fcdp T W x y 6).v)
    rw [h6]
    have e : (innerInterp W gridSub ![T.ar05, T.ar1, T.ar2, T.ar4, T.ar6] x y 6).v
        = T.ar6.val x y := inner_hit hW _ x y
    have : ContinuousAt (fun A =>
        (innerInterp W gridSub ![T.ar05, T.ar1, T.ar2, T.ar4, T.ar6] x y A).v) 6 := by
      simp only [innerInterp]
      exact tendsto_finsetSum _ fun i _ => (hc i).mul continuousAt_const
    have t := this.tendsto
    rw [e] at t
    refine (t.mono_left nhdsWithin_le_nhds).congr' ?_
    filter_upwards [self_mem_nhdsWithin,
      mem_nhdsWithin_of_mem_nhds (eventually_gt_nhds (show (1 / 2 : ℝ) < 6 by norm_num))]
      with a ha hb
    rw [fcdp, if_pos hx, if_neg (not_lt.2 (le_of_lt hb)), if_pos (show a < 6 from ha)]
  · show Tendsto _ _ (𝓝 (fcdp T W x y 6).v)
    have t := edge_tendsto (A1 := 4) (A2 := 6) (F1 := T.ar4.val x y) (F2 := T.ar6.val x y) (A := 6)
      (by norm_num; exact h4)
    rw [edge_upper (by norm_num) h4] at t
    rw [h6]
    norm_num at t
    refine (t.mono_left nhdsWithin_le_nhds).congr' ?_
    filter_upwards [self_mem_nhdsWithin] with a ha
    have ha' : (6 : ℝ) < a := ha
    rw [fcdp, if_pos hx, if_neg (by linarith), if_neg (by linarith)]
    rfl

/-- The interpolated value is continuous in `A` where the two groups of supersonic tables meet. -/
theorem fcdp_continuous_mid_partial {T : Tabs} {W : Weights} {x y : ℝ} (hx : 75 / 1000 < x)
    (h1 : W.Hits gridLow 4) (h2 : W.Hits gridHigh 1)
    (c1 : ∀ i, ContinuousAt (fun a => W.w gridLow a i) (14 / 10))
    (c2 : ∀ i, ContinuousAt (fun a => W.w gridHigh a i) (14 / 10)) :
    ContinuousAt (fun A => (fcdp T W x y A).v) (14 / 10) := by
  have k1 : ContinuousAt (fun A =>
      (innerInterp W gridLow ![T.s07, T.s08, T.s10, T.s12, T.s14] x y A).v) (14 / 10) := by
    simp only [innerInterp]
    exact tendsto_finsetSum _ fun i _ => (c1 i).mul continuousAt_const
  have k2 : ContinuousAt (fun A =>
      (innerInterp W gridHigh ![T.s12, T.s14, T.s16, T.s18, T.s20] x y A).v) (14 / 10) := by
    simp only [innerInterp]
    exact tendsto_finsetSum _ fun i _ => (c2 i).mul continuousAt_const
  have e1 : (innerInterp W gridLow ![T.s07, T.s08, T.s10, T.s12, T.s14] x y (14 / 10)).v
      = T.s14.val x y := inner_hit h1 _ x y
  have e2 : (innerInterp W gridHigh ![T.s12, T.s14, T.s16, T.s18, T.s20] x y (14 / 10)).v
      = T.s14.val x y := inner_hit h2 _ x y
  have e : (fcdp T W x y (14 / 10)).v = T.s14.val x y := by
    rw [fcdp, if_neg hx.not_ge, if_neg (by norm_num), if_pos le_rfl]
    exact e1
  have t1 := k1.tendsto
  have t2 := k2.tendsto
  rw [e1] at t1
  rw [e2] at t2
  rw [continuousAt_iff_continuous_left'_right']
  constructor
  · show Tendsto _ _ (𝓝 (fcdp T W x y (14 / 10)).v)
    rw [e]
    refine (t1.mono_left nhdsWithin_le_nhds).congr' ?_
    filter_upwards [self_mem_nhdsWithin,
      mem_nhdsWithin_of_mem_nhds (eventually_gt_nhds (show (7 / 10 : ℝ) < 14 / 10 by norm_num))]
      with a ha hb
    rw [fcdp, if_neg hx.not_ge, if_neg (not_lt.2 (le_of_lt hb)), if_pos (le_of_lt ha)]
  · show Tendsto _ _ (𝓝 (fcdp T W x y (14 / 10)).v)
    rw [e]
    refine (t2.mono_left nhdsWithin_le_nhds).congr' ?_
    filter_upwards [self_mem_nhdsWithin,
      mem_nhdsWithin_of_mem_nhds (eventually_lt_nhds (show (14 / 10 : ℝ) < 2 by norm_num))]
      with a ha hb
    have ha' : (14 / 10 : ℝ) < a := ha
    rw [fcdp, if_neg hx.not_ge, if_neg (by linarith), if_neg ha'.not_ge, if_pos (le_of_lt hb)]

theorem not_cont {f g : ℝ → ℝ} {a l : ℝ} {s : Set ℝ} [h : (𝓝[s] a).NeBot]
    (hg : Tendsto g (𝓝 a) (𝓝 l)) (he : ∀ᶠ t in 𝓝[s] a, f t = g t) (hl : l ≠ f a) :
    ¬ ContinuousAt f a := by
  intro c
  refine hl (tendsto_nhds_unique (f := g) (l := 𝓝[s] a) (hg.mono_left nhdsWithin_le_nhds) ?_)
  refine ((c.tendsto).mono_left nhdsWithin_le_nhds).congr' he

/-- Just below the lowest subsonic table the value is four times what the table says: the factor
`2` of `edge_interp` stands for the distance of the tables, which is a half here. -/
theorem fcdp_half_violated {T : Tabs} {W : Weights} {x y : ℝ} (hx : x ≤ 75 / 1000)
    (hW : W.Hits gridSub 0) (h1 : T.ar05.val x y ≠ 0) (h2 : T.ar1.val x y ≠ 0) :
    (fcdp T W x y (1 / 2)).v = T.ar05.val x y ∧
    Tendsto (fun A => (fcdp T W x y A).v) (𝓝[<] (1 / 2)) (𝓝 (4 * T.ar05.val x y)) ∧
    ¬ ContinuousAt (fun A => (fcdp T W x y A).v) (1 / 2) := by
  have e : (fcdp T W x y (1 / 2)).v = T.ar05.val x y := by
    rw [fcdp, if_pos hx, if_neg (lt_irrefl _), if_pos (by norm_num)]
    exact inner_hit hW _ x y
  have t := edge_tendsto (A1 := 1 / 2) (A2 := 1) (F1 := T.ar05.val x y) (F2 := T.ar1.val x y)
    (A := 1 / 2) (by norm_num; exact h2)
  rw [edge_lower (by norm_num) h2] at t
  norm_num at t
  have ev : ∀ᶠ A in 𝓝[<] (1 / 2 : ℝ), (fcdp T W x y A).v
      = edge (1 / 2) 1 (T.ar05.val x y) (T.ar1.val x y) A := by
    filter_upwards [self_mem_nhdsWithin] with a ha
    rw [fcdp, if_pos hx, if_pos (show a < 1 / 2 from ha)]
    rfl
  refine ⟨e, (t.mono_left nhdsWithin_le_nhds).congr' ?_,
    not_cont (s := Set.Iio (1 / 2)) t ?_ ?_⟩
  · filter_upwards [ev] with a ha
    rw [ha]
  · filter_upwards [ev] with a ha
    rw [ha]
  · rw [e]; intro h; apply h1; linarith

/-- Just below the lowest supersonic table the value is twenty times what the table says. -/
theorem fcdp_low_violated {T : Tabs} {W : Weights} {x y : ℝ} (hx : 75 / 1000 < x)
    (hW : W.Hits gridLow 0) (h1 : T.s07.val x y ≠ 0) (h2 : T.s08.val x y ≠ 0) :
    (fcdp T W x y (7 / 10)).v = T.s07.val x y ∧
    Tendsto (fun A => (fcdp T W x y A).v) (𝓝[<] (7 / 10)) (𝓝 (20 * T.s07.val x y)) ∧
    ¬ ContinuousAt (fun A => (fcdp T W x y A).v) (7 / 10) := by
  have e : (fcdp T W x y (7 / 10)).v = T.s07.val x y := by
    rw [fcdp, if_neg hx.not_ge, if_neg (lt_irrefl _), if_pos (by norm_num)]
    exact inner_hit hW _ x y
  have t := edge_tendsto (A1 := 7 / 10) (A2 := 8 / 10) (F1 := T.s07.val x y) (F2 := T.s08.val x y)
    (A := 7 / 10) (by norm_num; exact h2)
  rw [edge_lower (by norm_num) h2] at t
  have e20 : (2 : ℝ) / (8 / 10 - 7 / 10) = 20 := by norm_num
  rw [e20] at t
  have ev : ∀ᶠ A in 𝓝[<] (7 / 10 : ℝ), (fcdp T W x y A).v
      = edge (7 / 10) (8 / 10) (T.s07.val x y) (T.s08.val x y) A := by
    filter_upwards [self_mem_nhdsWithin] with a ha
    rw [fcdp, if_neg hx.not_ge, if_pos (show a < 7 / 10 from ha)]
    rfl
  refine ⟨e, (t.mono_left nhdsWithin_le_nhds).congr' ?_, not_cont t ev ?_⟩
  · filter_upwards [ev] with a ha
    exact ha.symm
  · rw [e]; intro h; apply h1; linarith

/-- Just above the highest supersonic table the value is ten times what the table says. -/
theorem fcdp_high_violated {T : Tabs} {W : Weights} {x y : ℝ} (hx : 75 / 1000 < x)
    (hW : W.Hits gridHigh 4) (h1 : T.s18.val x y ≠ 0) (h2 : T.s20.val x y ≠ 0) :
    (fcdp T W x y 2).v = T.s20.val x y ∧
    Tendsto (fun A => (fcdp T W x y A).v) (𝓝[>] 2) (𝓝 (10 * T.s20.val x y)) ∧
    ¬ ContinuousAt (fun A => (fcdp T W x y A).v) 2 := by
  have e : (fcdp T W x y 2).v = T.s20.val x y := by
    rw [fcdp, if_neg hx.not_ge, if_neg (by norm_num), if_neg (by norm_num), if_pos le_rfl]
    exact inner_hit hW _ x y
  have t := edge_tendsto (A1 := 18 / 10) (A2 := 2) (F1 := T.s18.val x y) (F2 := T.s20.val x y)
    (A := 2) (by norm_num; exact h1)
  rw [edge_upper (by norm_num) h1] at t
  have e10 : (2 : ℝ) / (2 - 18 / 10) = 10 := by norm_num
  rw [e10] at t
  have ev : ∀ᶠ A in 𝓝[>] (2 : ℝ), (fcdp T W x y A).v
      = edge (18 / 10) 2 (T.s18.val x y) (T.s20.val x y) A := by
    filter_upwards [self_mem_nhdsWithin] with a ha
    have ha' : (2 : ℝ) < a := ha
    rw [fcdp, if_neg hx.not_ge, if_neg (by linarith), if_neg (by linarith), if_neg ha'.not_ge]
    rfl
  refine ⟨e, (t.mono_left nhdsWithin_le_nhds).congr' ?_, not_cont t ev ?_⟩
  · filter_upwards [ev] with a ha
    exact ha.symm
  · rw [e]; intro h; apply h2; linarith

/-! ### Cases which meet the hypotheses -/

/-- A table of a constant. -/
noncomputable def Tab.const (c : ℝ) : Tab := ⟨fun _ _ => c, fun _ _ => 0, fun _ _ => 0⟩

theorem const_diff (c x y : ℝ) : (Tab.const c).DiffAt x y := by
  unfold Tab.DiffAt Tab.const
  simpa using hasFDerivAt_const c ((x, y) : ℝ × ℝ)

/-- A table linear in both variables. -/
noncomputable def Tab.lin (a b c : ℝ) : Tab :=
  ⟨fun x y => a * x + b * y + c, fun _ _ => a, fun _ _ => b⟩

theorem lin_diff (a b c x y : ℝ) : (Tab.lin a b c).DiffAt x y := by
  unfold Tab.DiffAt Tab.lin
  have h1 : HasFDerivAt (fun p : ℝ × ℝ => a * p.1) (a • ContinuousLinearMap.fst ℝ ℝ ℝ) (x, y) :=
    hasFDerivAt_fst.const_mul a
  have h2 : HasFDerivAt (fun p : ℝ × ℝ => b * p.2) (b • ContinuousLinearMap.snd ℝ ℝ ℝ) (x, y) :=
    hasFDerivAt_snd.const_mul b
  exact (h1.add h2).add_const c

/-- Tables whose value grows with the lift and falls with the index. -/
noncomputable def exTabs : Tabs where
  ar05 := Tab.lin 1 2 5
  ar1 := Tab.lin 1 2 4
  ar2 := Tab.lin 1 2 3
  ar4 := Tab.lin 1 2 2
  ar6 := Tab.lin 1 2 1
  s07 := Tab.lin 1 2 9
  s08 := Tab.lin 1 2 8
  s10 := Tab.lin 1 2 7
  s12 := Tab.lin 1 2 6
  s14 := Tab.lin 1 2 5
  s16 := Tab.lin 1 2 4
  s18 := Tab.lin 1 2 3
  s20 := Tab.lin 1 2 2

/-- The weight of the grid point `i` of the quadratic through the grid points `a`, `b` and `c`. -/
noncomputable def quad (p q r a : ℝ) : ℝ := (a - q) * (a - r) / ((p - q) * (p - r))

/-- The quadratic through the first, the second and the last grid point. -/
noncomputable def exW : Weights where
  w g a := ![quad (g 0) (g 1) (g 4) a, quad (g 1) (g 0) (g 4) a, 0, 0, quad (g 4) (g 0) (g 1) a]
  dw g a := ![(2 * a - g 1 - g 4) / ((g 0 - g 1) * (g 0 - g 4)),
    (2 * a - g 0 - g 4) / ((g 1 - g 0) * (g 1 - g 4)), 0, 0,
    (2 * a - g 0 - g 1) / ((g 4 - g 0) * (g 4 - g 1))]

theorem quad_deriv (p q r a : ℝ) :
    HasDerivAt (quad p q r) ((2 * a - q - r) / ((p - q) * (p - r))) a := by
  have := ((((hasDerivAt_id a).sub_const q).mul ((hasDerivAt_id a).sub_const r))).div_const
    ((p - q) * (p - r))
  refine hd_congr this (fun t => rfl) ?_
  simp only [id]
  ring

theorem exW_deriv (g : Fin 5 → ℝ) (a : ℝ) (i : Fin 5) :
    HasDerivAt (fun a => exW.w g a i) (exW.dw g a i) a := by
  fin_cases i
  · exact quad_deriv _ _ _ _
  · exact quad_deriv _ _ _ _
  · exact hasDerivAt_const _ _
  · exact hasDerivAt_const _ _
  · exact quad_deriv _ _ _ _

example : exW.Hits gridSub 0 := by
  intro i; fin_cases i <;> simp [exW, quad, gridSub] <;> norm_num

example : exW.Hits gridSub 4 := by
  intro i; fin_cases i <;> simp [exW, quad, gridSub] <;> norm_num

example : exW.Hits gridLow 4 := by
  intro i; fin_cases i <;> simp [exW, quad, gridLow] <;> norm_num

example : exW.Hits gridHigh 1 := by
  intro i; fin_cases i <;> simp [exW, quad, gridHigh] <;> norm_num

example : exW.Hits gridLow 0 := by
  intro i; fin_cases i <;> simp [exW, quad, gridLow] <;> norm_num

example : exW.Hits gridHigh 4 := by
  intro i; fin_cases i <;> simp [exW, quad, gridHigh] <;> norm_num

/-- An aircraft in cruise, a little slower than its design Mach number. -/
noncomputable def exIn : In where
  mach := 1 / 2
  lift := 1
  P := 8
  cldes := 0
  mdes := 8 / 10
  sref := 1
  AR := 10
  cam := 1
  sweep := 25
  TC := 1 / 8
  gamma := 1

theorem ex_A : bigA exIn = 5 := by
  have : ((1 : ℝ) / 8) ^ (1 / 3 : ℝ) = 1 / 2 := by
    rw [show (1 : ℝ) / 8 = (1 / 2) ^ (3 : ℝ) by norm_num, ← rpow_mul (by norm_num)]; norm_num
  simp only [bigA, exIn, this]; norm_num

theorem ex_regular : Regular exTabs exW (delm exIn) (delcl exIn) (bigA exIn) := by
  have hm : delm exIn = -3 / 10 := by simp [delm, exIn]; norm_num
  rw [ex_A, hm]
  constructor
  case wsub => exact fun _ _ => exW_deriv _ _
  case wlow => exact fun _ _ => exW_deriv _ _
  case whigh => exact fun _ _ => exW_deriv _ _
  all_goals first | exact lin_diff _ _ _ _ _ | norm_num

example : Flyable exIn := by constructor <;> norm_num [exIn]

example : Regular exTabs exW (delm exIn) (delcl exIn) (bigA exIn) ∧ raw exTabs exW exIn ≠ 0 := by
  refine ⟨ex_regular, ?_⟩
  have h : raw exTabs exW exIn = (fc exTabs exW exIn).v * (1 + 1 / 10) * 5 / 10 := by
    rw [raw, ex_A]; rfl
  have hm : delm exIn = -3 / 10 := by simp [delm, exIn]; norm_num
  have hc : delcl exIn = 1 := by simp [delcl, cl, exIn]; norm_num
  rw [h, fc, ex_A, hm, hc, fcdp, if_pos (by norm_num), if_neg (by norm_num), if_pos (by norm_num)]
  simp [innerInterp, Fin.sum_univ_five, exW, quad, gridSub, exTabs, Tab.lin]
  norm_num

example : (exTabs.ar05.val 0 0 ≠ 0 ∧ exTabs.ar1.val 0 0 ≠ 0) ∧
    (exTabs.s07.val 1 0 ≠ 0 ∧ exTabs.s08.val 1 0 ≠ 0) ∧
    (exTabs.s18.val 1 0 ≠ 0 ∧ exTabs.s20.val 1 0 ≠ 0) := by
  norm_num [exTabs, Tab.lin]

end Verif.LiftDrag
