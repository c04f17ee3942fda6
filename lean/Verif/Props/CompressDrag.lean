import Verif.Model.CompressDrag
import Mathlib.Analysis.SpecialFunctions.Pow.Deriv
import Mathlib.Analysis.SpecialFunctions.Trigonometric.Deriv
import Mathlib.Analysis.SpecialFunctions.Trigonometric.ArctanDeriv
import Mathlib.Analysis.Real.Pi.Bounds
import Mathlib.Tactic.FieldSimp
import Mathlib.Tactic.Ring
import Mathlib.Tactic.Linarith
import Mathlib.Tactic.FinCases

/-! ## C96: compressibility drag and its derivatives -/

namespace Verif.CompressDrag
open Real Filter Topology

/-! ### The clamped tables -/

/-- Off the zeros of the table the derivatives of the clamped table are right. -/
theorem clamp_diff {T : Tab} {x y : ℝ} (h : T.DiffAt x y) (h0 : T.val x y ≠ 0) :
    (clamp T).DiffAt x y := by
  unfold Tab.DiffAt at *
  have c := h.continuousAt
  rcases lt_or_gt_of_ne h0 with n | n
  · have e1 : (clamp T).d1 x y = 0 := if_pos n.le
    have e2 : (clamp T).d2 x y = 0 := if_pos n.le
    rw [e1, e2]
    have k : HasFDerivAt (fun _ : ℝ × ℝ => (0 : ℝ)) (0 : ℝ × ℝ →L[ℝ] ℝ) (x, y) :=
      hasFDerivAt_const _ _
    have k' : HasFDerivAt (fun p : ℝ × ℝ => (clamp T).val p.1 p.2) (0 : ℝ × ℝ →L[ℝ] ℝ) (x, y) := by
      refine k.congr_of_eventuallyEq ?_
      filter_upwards [c.eventually_lt_const n] with p hp
      exact if_pos (le_of_lt hp)
    simpa using k'
  · have e1 : (clamp T).d1 x y = T.d1 x y := if_neg n.not_ge
    have e2 : (clamp T).d2 x y = T.d2 x y := if_neg n.not_ge
    rw [e1, e2]
    refine h.congr_of_eventuallyEq ?_
    filter_upwards [c.eventually_const_lt n] with p hp
    exact if_neg (not_le.2 hp)

/-- The clamped value is never negative and is the value of the table where that is positive. -/
theorem clamp_val (T : Tab) (x y : ℝ) : (clamp T).val x y = max (T.val x y) 0 := by
  unfold clamp
  simp only
  split
  · rw [max_eq_right ‹_›]
  · rw [max_eq_left (le_of_not_ge ‹_›)]

theorem clamp_nonneg (T : Tab) (x y : ℝ) : 0 ≤ (clamp T).val x y := by
  rw [clamp_val]; exact le_max_right _ _

/-! ### No stale entries -/

/-- Every entry of the node is assigned by either branch: what an earlier call left there has no
influence. -/
theorem partials_fresh (T : Tabs) (s s' : State) (i : In) : partials T s i = partials T s' i := by
  funext w
  unfold partials
  split
  · cases w <;> simp [assign, superAssign, Function.update]
  · unfold subAssign
    split <;> cases w <;> simp [assign, Function.update]

/-! ### The four terms -/

theorem pow53 {x : ℝ} : HasDerivAt (fun t : ℝ => t ^ (5 / 3 : ℝ)) (5 / 3 * x ^ (2 / 3 : ℝ)) x := by
  have := Real.hasDerivAt_rpow_const (x := x) (p := (5 / 3 : ℝ)) (Or.inr (by norm_num))
  refine hd_congr this (fun t => rfl) ?_
  norm_num

theorem pow23 {x : ℝ} (hx : 0 < x) :
    HasDerivAt (fun t : ℝ => t ^ (2 / 3 : ℝ)) (2 / 3 * x ^ (-1 / 3 : ℝ)) x := by
  have := Real.hasDerivAt_rpow_const (x := x) (p := (2 / 3 : ℝ)) (Or.inl hx.ne')
  refine hd_congr this (fun t => rfl) ?_
  norm_num

theorem wing1_deriv {T : Tabs} {i : In} (hT : T.pcw.DiffAt (delm i) (toc i))
    (h0 : T.pcw.val (delm i) (toc i) ≠ 0) (hTC : 0 < i.TC) (w : Wrt) :
    HasDerivAt (fun t => cd1 T (i.set w t) * kWing (i.set w t))
      (match w with
        | .mach => kWing i * (clamp T.pcw).d1 (delm i) (toc i)
        | .mdes => -kWing i * (clamp T.pcw).d1 (delm i) (toc i)
        | .TC => 5 / 3 * cd1 T i * (1 + 1 / 10 * i.cam) * i.TC ^ (2 / 3 : ℝ)
            + kWing i * ((clamp T.pcw).d2 (delm i) (toc i) * (2 / 3 * i.TC ^ (-1 / 3 : ℝ)))
        | .cam => cd1 T i * (1 / 10) * i.TC ^ (5 / 3 : ℝ)
        | _ => 0) (i.get w) := by
  have C := (clamp_diff hT h0).curve
  cases w
  case mach =>
    have q := C (fun t => delm (i.set .mach t)) (fun t => toc (i.set .mach t)) 1 0 i.mach rfl rfl
      ((hasDerivAt_id _).sub_const _) (hasDerivAt_const _ (toc i))
    exact hd_congr (q.mul_const (kWing i)) (fun t => rfl) (by ring)
  case mdes =>
    have q := C (fun t => delm (i.set .mdes t)) (fun t => toc (i.set .mdes t)) (-1) 0 i.mdes rfl rfl
      ((hasDerivAt_id _).const_sub _) (hasDerivAt_const _ (toc i))
    exact hd_congr (q.mul_const (kWing i)) (fun t => rfl) (by ring)
  case TC =>
    have q := C (fun t => delm (i.set .TC t)) (fun t => toc (i.set .TC t)) 0
      (2 / 3 * i.TC ^ (-1 / 3 : ℝ)) i.TC rfl rfl (hasDerivAt_const _ (delm i)) (pow23 hTC)
    refine hd_congr (q.mul ((pow53 (x := i.TC)).mul_const (1 + 1 / 10 * i.cam))) (fun t => rfl) ?_
    show _ = _ * kWing i + cd1 T i * _
    ring
  case cam =>
    refine affine_deriv fun t => ?_
    show cd1 T i * (i.TC ^ (5 / 3 : ℝ) * (1 + 1 / 10 * t)) = _ * t
      + cd1 T i * (i.TC ^ (5 / 3 : ℝ) * (1 + 1 / 10 * 0))
    ring
  all_goals exact hasDerivAt_const _ (cd1 T i * kWing i)

theorem wing3_deriv {T : Tabs} {i : In} (hT : T.pcar.DiffAt (delm i) (art i))
    (h0 : T.pcar.val (delm i) (art i) ≠ 0) (ht : i.taper ≠ -1) (hc : cos (i.sweep / deg) ≠ 0)
    (w : Wrt) :
    HasDerivAt (fun t => cd3 T (i.set w t) * kWing (i.set w t))
      (match w with
        | .mach => p3m T i
        | .mdes => p3m T i * -1
        | .TC => 5 / 3 * cd3 T i * i.TC ^ (2 / 3 : ℝ) * (1 + 1 / 10 * i.cam)
        | .cam => 1 / 10 * cd3 T i * i.TC ^ (5 / 3 : ℝ)
        | .taper => p3a T i * dArtTaper i
        | .sweep => p3a T i * dArtSweep i
        | .AR => p3a T i * tan (i.sweep / deg)
        | _ => 0) (i.get w) := by
  have C := (clamp_diff hT h0).curve
  cases w
  case mach =>
    have q := C (fun t => delm (i.set .mach t)) (fun t => art (i.set .mach t)) 1 0 i.mach rfl rfl
      ((hasDerivAt_id _).sub_const _) (hasDerivAt_const _ (art i))
    exact hd_congr (q.mul_const (kWing i)) (fun t => rfl) (by simp only [p3m]; ring)
  case mdes =>
    have q := C (fun t => delm (i.set .mdes t)) (fun t => art (i.set .mdes t)) (-1) 0 i.mdes rfl rfl
      ((hasDerivAt_id _).const_sub _) (hasDerivAt_const _ (art i))
    exact hd_congr (q.mul_const (kWing i)) (fun t => rfl) (by simp only [p3m]; ring)
  case TC =>
    refine hd_congr ((((pow53 (x := i.TC)).mul_const (1 + 1 / 10 * i.cam)).const_mul (cd3 T i)))
      (fun t => rfl) ?_
    ring
  case cam =>
    refine affine_deriv fun t => ?_
    show cd3 T i * (i.TC ^ (5 / 3 : ℝ) * (1 + 1 / 10 * t)) = _ * t
      + cd3 T i * (i.TC ^ (5 / 3 : ℝ) * (1 + 1 / 10 * 0))
    ring
  case taper =>
    have hn : 1 + i.taper ≠ 0 := fun h => ht (by linarith)
    have hn' : i.taper + 1 ≠ 0 := fun h => ht (by linarith)
    have d : HasDerivAt (fun t => art (i.set .taper t)) (dArtTaper i) i.taper := by
      have e := ((hasDerivAt_id i.taper).const_sub 1).div ((hasDerivAt_id i.taper).const_add 1) hn
      refine hd_congr (e.const_add (i.AR * tan (i.sweep / deg))) (fun t => rfl) ?_
      simp only [dArtTaper, id]
      field_simp
      ring
    have q := C (fun t => delm (i.set .taper t)) (fun t => art (i.set .taper t)) 0 _ i.taper rfl rfl
      (hasDerivAt_const _ (delm i)) d
    exact hd_congr (q.mul_const (kWing i)) (fun t => rfl) (by simp only [p3a]; ring)
  case sweep =>
    have d : HasDerivAt (fun t => art (i.set .sweep t)) (dArtSweep i) i.sweep := by
      have e := (Real.hasDerivAt_tan hc).comp i.sweep ((hasDerivAt_id i.sweep).div_const deg)
      refine hd_congr ((e.const_mul i.AR).add_const ((1 - i.taper) / (1 + i.taper)))
        (fun t => rfl) ?_
      have k : tan (i.sweep / deg) ^ 2 + 1 = 1 / cos (i.sweep / deg) ^ 2 := by
        rw [tan_eq_sin_div_cos, div_pow]
        have := sin_sq_add_cos_sq (i.sweep / deg)
        field_simp
        linarith
      simp only [dArtSweep, k]
      ring
    have q := C (fun t => delm (i.set .sweep t)) (fun t => art (i.set .sweep t)) 0 _ i.sweep rfl rfl
      (hasDerivAt_const _ (delm i)) d
    exact hd_congr (q.mul_const (kWing i)) (fun t => rfl) (by simp only [p3a]; ring)
  case AR =>
    have d : HasDerivAt (fun t => art (i.set .AR t)) (tan (i.sweep / deg)) i.AR := by
      refine affine_deriv fun t => ?_
      simp only [art, In.set]; ring
    have q := C (fun t => delm (i.set .AR t)) (fun t => art (i.set .AR t)) 0 _ i.AR rfl rfl
      (hasDerivAt_const _ (delm i)) d
    exact hd_congr (q.mul_const (kWing i)) (fun t => rfl) (by simp only [p3a]; ring)
  all_goals exact hasDerivAt_const _ (cd3 T i * kWing i)

theorem fus_deriv {B : Tab} {i : In} (hT : B.DiffAt i.mach (sos i)) (h0 : B.val i.mach (sos i) ≠ 0)
    (hf : i.fuse ≠ 0) (hs : i.sref ≠ 0) (hl : i.ld ≠ 0) (w : Wrt) :
    HasDerivAt (fun t => (clamp B).val (i.set w t).mach (sos (i.set w t)) * kFus (i.set w t))
      (match w with
        | .mach => kFus i * (clamp B).d1 i.mach (sos i)
        | .fuse => (clamp B).val i.mach (sos i) / (i.sref * i.ld ^ 2)
            + kFus i * (clamp B).d2 i.mach (sos i) * (-i.base / i.fuse ^ 2)
        | .base => kFus i * (clamp B).d2 i.mach (sos i) * (1 / i.fuse)
        | .sref => -(clamp B).val i.mach (sos i) * i.fuse / (i.sref * i.ld) ^ 2
        | .ld => -2 * (clamp B).val i.mach (sos i) * i.fuse / (i.sref * i.ld ^ 3)
        | _ => 0) (i.get w) := by
  have C := (clamp_diff hT h0).curve
  cases w
  case mach =>
    have q := C (fun t => t) (fun t => sos (i.set .mach t)) 1 0 i.mach rfl rfl
      (hasDerivAt_id _) (hasDerivAt_const _ (sos i))
    exact hd_congr (q.mul_const (kFus i)) (fun t => rfl) (by ring)
  case fuse =>
    have d : HasDerivAt (fun t => sos (i.set .fuse t)) (-i.base / i.fuse ^ 2) i.fuse := by
      have e := ((hasDerivAt_const i.fuse i.base).div (hasDerivAt_id i.fuse) hf).const_add 1
      refine hd_congr e (fun t => rfl) ?_
      simp only [id]; ring
    have q := C (fun _ => i.mach) (fun t => sos (i.set .fuse t)) 0 _ i.fuse rfl rfl
      (hasDerivAt_const _ i.mach) d
    have k : HasDerivAt (fun t => kFus (i.set .fuse t)) (1 / (i.sref * i.ld ^ 2)) i.fuse := by
      refine affine_deriv fun t => ?_
      simp only [kFus, In.set]; field_simp; ring
    refine hd_congr (q.mul k) (fun t => rfl) ?_
    show _ = _ * kFus i + (clamp B).val i.mach (sos i) * _
    ring
  case base =>
    have d : HasDerivAt (fun t => sos (i.set .base t)) (1 / i.fuse) i.base := by
      refine affine_deriv fun t => ?_
      simp only [sos, In.set]; ring
    have q := C (fun _ => i.mach) (fun t => sos (i.set .base t)) 0 _ i.base rfl rfl
      (hasDerivAt_const _ i.mach) d
    exact hd_congr (q.mul_const (kFus i)) (fun t => rfl) (by ring)
  case sref =>
    have e := (((hasDerivAt_const i.sref i.fuse).div (hasDerivAt_id i.sref) hs).mul_const
      (1 / i.ld ^ 2)).const_mul ((clamp B).val i.mach (sos i))
    refine hd_congr e (fun t => rfl) ?_
    simp only [id]
    field_simp
    ring
  case ld =>
    have e := (((hasDerivAt_const i.ld (1 : ℝ)).div ((hasDerivAt_id i.ld).pow 2)
      (by simp only [Pi.pow_apply, id]; positivity)).const_mul
      (i.fuse / i.sref)).const_mul ((clamp B).val i.mach (sos i))
    refine hd_congr e (fun t => rfl) ?_
    simp only [Pi.pow_apply, id]
    field_simp
    ring
  all_goals exact hasDerivAt_const _ ((clamp B).val i.mach (sos i) * kFus i)

theorem kInt_eq {i : In} (h : i.taper ≠ 1) : kInt i = k5 i := by
  unfold kInt k5 taper'
  rw [if_neg h]

theorem int_deriv {T : Tabs} {i : In} (hT : T.wfi.DiffAt i.mach i.dws) (ht : i.taper ≠ 1)
    (hc : cos (i.sweep / deg) ≠ 0) (w : Wrt) :
    HasDerivAt (fun t => cd5 T (i.set w t) * kInt (i.set w t))
      (match w with
        | .mach => k5 i * T.wfi.d1 i.mach i.dws
        | .dws => k5 i * T.wfi.d2 i.mach i.dws
        | .taper => cd5 T i / ((1 - i.taper) ^ 2 * cos (i.sweep / deg))
        | .sweep => cd5 T i * sin (i.sweep / deg)
            / (deg * (1 - i.taper) * cos (i.sweep / deg) ^ 2)
        | _ => 0) (i.get w) := by
  have C := hT.curve
  have hn : 1 - i.taper ≠ 0 := fun h => ht (by linarith)
  have hd : deg ≠ 0 := by norm_num [deg]
  cases w
  case mach =>
    have q := C (fun t => t) (fun _ => i.dws) 1 0 i.mach rfl rfl
      (hasDerivAt_id _) (hasDerivAt_const _ i.dws)
    exact hd_congr (q.mul_const (kInt i)) (fun t => rfl) (by rw [kInt_eq ht]; ring)
  case dws =>
    have q := C (fun _ => i.mach) (fun t => t) 0 1 i.dws rfl rfl
      (hasDerivAt_const _ i.mach) (hasDerivAt_id _)
    exact hd_congr (q.mul_const (kInt i)) (fun t => rfl) (by rw [kInt_eq ht]; ring)
  case taper =>
    have e := ((((hasDerivAt_const i.taper (1 : ℝ)).div ((hasDerivAt_id i.taper).const_sub 1)
      hn).div_const (cos (i.sweep / deg))).const_mul (cd5 T i))
    have e' : HasDerivAt (fun t => cd5 T i * k5 (i.set .taper t))
        (cd5 T i / ((1 - i.taper) ^ 2 * cos (i.sweep / deg))) i.taper := by
      refine hd_congr e (fun t => rfl) ?_
      simp only [id]
      field_simp
      ring
    refine e'.congr_of_eventuallyEq ?_
    filter_upwards [eventually_ne_nhds ht] with t h
    rw [kInt_eq (show (i.set .taper t).taper ≠ 1 from h)]
    rfl
  case sweep =>
    have e := (((hasDerivAt_const i.sweep (1 / (1 - i.taper))).div
      ((hasDerivAt_cos _).comp i.sweep ((hasDerivAt_id i.sweep).div_const deg)) hc).const_mul
        (cd5 T i))
    refine hd_congr e (fun t => ?_) ?_
    · rw [kInt_eq (show (i.set .sweep t).taper ≠ 1 from ht)]
      rfl
    · simp only [Function.comp, id]
      field_simp
      ring
  all_goals exact hasDerivAt_const _ (cd5 T i * kInt i)

/-! ### The component -/

theorem set_get (i : In) (w : Wrt) : i.set w (i.get w) = i := by cases w <;> rfl

theorem cont_fuse (i : In) (w : Wrt) : ContinuousAt (fun t => (i.set w t).fuse) (i.get w) := by
  cases w
  case fuse => exact continuousAt_id
  all_goals exact continuousAt_const (y := i.fuse)

theorem cont_mach (i : In) (w : Wrt) : ContinuousAt (fun t => (i.set w t).mach) (i.get w) := by
  cases w
  case mach => exact continuousAt_id
  all_goals exact continuousAt_const (y := i.mach)

theorem cont_mdes (i : In) (w : Wrt) : ContinuousAt (fun t => (i.set w t).mdes) (i.get w) := by
  cases w
  case mdes => exact continuousAt_id
  all_goals exact continuousAt_const (y := i.mdes)

theorem ev_of_lt {i : In} {w : Wrt} {f : In → ℝ} {c : ℝ}
    (hf : ContinuousAt (fun t => f (i.set w t)) (i.get w)) (h : c < f i) :
    ∀ᶠ t in 𝓝 (i.get w), c < f (i.set w t) := by
  refine hf.eventually_const_lt ?_
  show c < f (i.set w (i.get w))
  rw [set_get]; exact h

theorem ev_of_gt {i : In} {w : Wrt} {f : In → ℝ} {c : ℝ}
    (hf : ContinuousAt (fun t => f (i.set w t)) (i.get w)) (h : f i < c) :
    ∀ᶠ t in 𝓝 (i.get w), f (i.set w t) < c := by
  refine hf.eventually_lt_const ?_
  show f (i.set w (i.get w)) < c
  rw [set_get]; exact h

/-- What the subsonic branch needs: the point is off the switch, off the zeros of the tables and off
an empty fuselage, and nothing is divided by zero. -/
structure SubOk (T : Tabs) (i : In) : Prop where
  hm : delm i < 5 / 100
  hTC : 0 < i.TC
  hs : i.sref ≠ 0
  hl : i.ld ≠ 0
  hf : i.fuse ≠ 0
  t1 : T.pcw.DiffAt (delm i) (toc i)
  z1 : T.pcw.val (delm i) (toc i) ≠ 0
  t2 : 0 < i.fuse → T.bsub.DiffAt i.mach (sos i)
  z2 : 0 < i.fuse → T.bsub.val i.mach (sos i) ≠ 0

/-- All twelve derivatives of the subsonic branch are right. -/
theorem sub_partials_partial {T : Tabs} {i : In} (h : SubOk T i) (s : State) (w : Wrt) :
    ∃ d, partials T s i w = some d ∧ HasDerivAt (fun t => drag T (i.set w t)) d (i.get w) := by
  have a := wing1_deriv h.t1 h.z1 h.hTC w
  have ev := ev_of_gt (i := i) (w := w) (f := delm) ((cont_mach i w).sub (cont_mdes i w)) h.hm
  rcases lt_or_gt_of_ne h.hf with n | n
  · refine ⟨_, ?_, a.congr_of_eventuallyEq ?_⟩
    · rw [partials, if_neg h.hm.not_gt, subAssign, if_neg n.not_gt]
      cases w <;> simp [assign, Function.update, dcd2m, n.not_gt]
    · filter_upwards [ev, ev_of_gt (i := i) (w := w) (f := In.fuse) (cont_fuse i w) n] with t h1 h2
      rw [drag, if_neg h1.not_gt, sub, if_neg h2.not_gt]
  · have b := fus_deriv (h.t2 n) (h.z2 n) h.hf h.hs h.hl w
    refine ⟨_, ?_, (a.add b).congr_of_eventuallyEq ?_⟩
    · rw [partials, if_neg h.hm.not_gt, subAssign, if_pos n]
      cases w <;> simp [assign, Function.update, dcd2m, n, cd2]
    · filter_upwards [ev, ev_of_lt (i := i) (w := w) (f := In.fuse) (cont_fuse i w) n] with t h1 h2
      rw [drag, if_neg h1.not_gt, sub, if_pos h2]
      rfl

/-- What the supersonic branch needs. -/
structure SuperOk (T : Tabs) (i : In) : Prop where
  hm : 5 / 100 < delm i
  ht : i.taper ≠ -1
  hc : cos (i.sweep / deg) ≠ 0
  hs : i.sref ≠ 0
  hl : i.ld ≠ 0
  hf : i.fuse ≠ 0
  t3 : T.pcar.DiffAt (delm i) (art i)
  z3 : T.pcar.val (delm i) (art i) ≠ 0
  t4 : 0 < i.fuse → T.bsup.DiffAt i.mach (sos i)
  z4 : 0 < i.fuse → T.bsup.val i.mach (sos i) ≠ 0
  hm1 : 0 < i.fuse → i.mach ≠ 1
  t5 : 0 < i.fuse → 1 < i.mach → T.wfi.DiffAt i.mach i.dws

/-- All twelve derivatives of the supersonic branch are right if the wing has a taper ratio other than
one. -/
theorem super_partials_partial {T : Tabs} {i : In} (h : SuperOk T i) (ht : i.taper ≠ 1) (s : State)
    (w : Wrt) :
    ∃ d, partials T s i w = some d ∧ HasDerivAt (fun t => drag T (i.set w t)) d (i.get w) := by
  have a := wing3_deriv h.t3 h.z3 h.ht h.hc w
  have ev := ev_of_lt (i := i) (w := w) (f := delm) ((cont_mach i w).sub (cont_mdes i w)) h.hm
  rcases lt_or_gt_of_ne h.hf with n | n
  · refine ⟨_, ?_, a.congr_of_eventuallyEq ?_⟩
    · rw [partials, if_pos h.hm]
      cases w <;> simp [assign, superAssign, Function.update, n.not_gt]
    · filter_upwards [ev, ev_of_gt (i := i) (w := w) (f := In.fuse) (cont_fuse i w) n] with t h1 h2
      rw [drag, if_pos h1, super, if_neg h2.not_gt]
  · have b := fus_deriv (h.t4 n) (h.z4 n) h.hf h.hs h.hl w
    have ef := ev_of_lt (i := i) (w := w) (f := In.fuse) (cont_fuse i w) n
    rcases lt_or_gt_of_ne (h.hm1 n) with m | m
    · refine ⟨_, ?_, (a.add b).congr_of_eventuallyEq ?_⟩
      · rw [partials, if_pos h.hm]
        cases w <;> simp [assign, superAssign, Function.update, n, m.not_ge, cd4, p4s]
      · filter_upwards [ev, ef, ev_of_gt (i := i) (w := w) (f := In.mach) (cont_mach i w) m]
          with t h1 h2 h3
        rw [drag, if_pos h1, super, if_pos h2, if_neg h3.not_ge]
        rfl
    · have c := int_deriv (h.t5 n m) ht h.hc w
      refine ⟨_, ?_, ((a.add b).add c).congr_of_eventuallyEq ?_⟩
      · rw [partials, if_pos h.hm]
        cases w <;> simp [assign, superAssign, Function.update, n, m.le, cd4, p4s, byTaper, ht]
      · filter_upwards [ev, ef, ev_of_lt (i := i) (w := w) (f := In.mach) (cont_mach i w) m]
          with t h1 h2 h3
        rw [drag, if_pos h1, super, if_pos h2, if_pos h3.le]
        rfl

/-- With a taper ratio of one the output uses a half instead and has a derivative with respect to the
Mach number, but the stored entry is a division by zero: `compute_partials` does not make the
replacement. -/
theorem super_taper_violated {T : Tabs} {i : In} (h : SuperOk T i) (hf : 0 < i.fuse)
    (hm : 1 < i.mach) (ht : i.taper = 1) (s : State) :
    partials T s i .mach = none ∧
    ∃ d, HasDerivAt (fun t => drag T { i with mach := t }) d i.mach := by
  constructor
  · rw [partials, if_pos h.hm]
    simp [assign, superAssign, Function.update, hf, hm.le, byTaper, ht]
  · have a := wing3_deriv h.t3 h.z3 h.ht h.hc .mach
    have b := fus_deriv (h.t4 hf) (h.z4 hf) h.hf h.hs h.hl .mach
    have q := (h.t5 hf hm).curve (fun t => t) (fun _ => i.dws) 1 0 i.mach rfl rfl
      (hasDerivAt_id _) (hasDerivAt_const _ i.dws)
    refine ⟨_, ((a.add b).add (q.mul_const (kInt i))).congr_of_eventuallyEq ?_⟩
    filter_upwards [ev_of_lt (i := i) (w := .mach) (f := delm)
      ((cont_mach i .mach).sub (cont_mdes i .mach)) h.hm,
      ev_of_lt (i := i) (w := .mach) (f := In.mach) (cont_mach i .mach) hm] with t h1 h3
    have h1' : 5 / 100 < delm { i with mach := t } := h1
    have h3' : 1 ≤ ({ i with mach := t } : In).mach := le_of_lt h3
    rw [drag, if_pos h1', super, if_pos hf, if_pos h3']
    rfl

/-- Off a taper ratio of one no entry is a division by zero. -/
theorem partials_some {T : Tabs} {i : In} (ht : i.taper ≠ 1) (s : State) (w : Wrt) :
    (partials T s i w).isSome := by
  unfold partials
  split
  · by_cases hf : 0 < i.fuse <;> by_cases hm : 1 ≤ i.mach <;>
      cases w <;> simp [assign, superAssign, Function.update, byTaper, ht, hf, hm]
  · unfold subAssign
    split <;> cases w <;> simp [assign, Function.update]

/-- In the subsonic branch the coefficient is never negative. -/
theorem sub_nonneg {T : Tabs} {i : In} (hm : delm i ≤ 5 / 100) (hTC : 0 ≤ i.TC) (hc : -10 ≤ i.cam)
    (hs : 0 ≤ i.sref) : 0 ≤ drag T i := by
  rw [drag, if_neg (not_lt.2 hm), sub]
  have k : 0 ≤ kWing i := mul_nonneg (rpow_nonneg hTC _) (by linarith)
  have a : 0 ≤ cd1 T i * kWing i := mul_nonneg (clamp_nonneg _ _ _) k
  split
  · have f : 0 ≤ kFus i := by
      have : 0 ≤ i.fuse := le_of_lt ‹_›
      unfold kFus; positivity
    exact add_nonneg a (mul_nonneg (clamp_nonneg _ _ _) f)
  · exact a

/-- The wing and the fuselage alone never give a negative coefficient above the switch either; only
the interference can. -/
theorem super_nonneg {T : Tabs} {i : In} (hm : 5 / 100 < delm i) (hTC : 0 ≤ i.TC)
    (hc : -10 ≤ i.cam) (hs : 0 ≤ i.sref) (h1 : i.mach < 1) : 0 ≤ drag T i := by
  rw [drag, if_pos hm, super]
  have k : 0 ≤ kWing i := mul_nonneg (rpow_nonneg hTC _) (by linarith)
  have a : 0 ≤ cd3 T i * kWing i := mul_nonneg (clamp_nonneg _ _ _) k
  split
  · rw [if_neg h1.not_ge]
    have f : 0 ≤ kFus i := by
      have : 0 ≤ i.fuse := le_of_lt ‹_›
      unfold kFus; positivity
    exact add_nonneg a (mul_nonneg (clamp_nonneg _ _ _) f)
  · exact a

/-! ### Cases which meet the hypotheses -/

/-- A table linear in both variables. -/
noncomputable def lin (a b c : ℝ) : Tab :=
  ⟨fun x y => a * x + b * y + c, fun _ _ => a, fun _ _ => b⟩

theorem lin_diff (a b c x y : ℝ) : (lin a b c).DiffAt x y := by
  unfold Tab.DiffAt lin
  have h1 : HasFDerivAt (fun p : ℝ × ℝ => a * p.1) (a • ContinuousLinearMap.fst ℝ ℝ ℝ) (x, y) :=
    hasFDerivAt_fst.const_mul a
  have h2 : HasFDerivAt (fun p : ℝ × ℝ => b * p.2) (b • ContinuousLinearMap.snd ℝ ℝ ℝ) (x, y) :=
    hasFDerivAt_snd.const_mul b
  exact (h1.add h2).add_const c

noncomputable def exTabs : Tabs := ⟨lin 1 1 3, lin 1 1 0, lin 1 0 3, lin 1 1 0, lin 1 1 0⟩

/-- An aircraft with an unswept wing. -/
noncomputable def exIn (mach taper : ℝ) : In where
  mach := mach
  mdes := 8 / 10
  base := 1
  sref := 100
  AR := 10
  cam := 1
  sweep := 0
  taper := taper
  TC := 1 / 8
  fuse := 10
  dws := 1 / 10
  ld := 8

theorem ex_sub : SubOk exTabs (exIn (7 / 10) (1 / 2)) where
  hm := by norm_num [delm, exIn]
  hTC := by norm_num [exIn]
  hs := by norm_num [exIn]
  hl := by norm_num [exIn]
  hf := by norm_num [exIn]
  t1 := lin_diff _ _ _ _ _
  z1 := by
    have : (0 : ℝ) < toc (exIn (7 / 10) (1 / 2)) := rpow_pos_of_pos (by norm_num [exIn]) _
    have h : exTabs.pcw.val (delm (exIn (7 / 10) (1 / 2))) (toc (exIn (7 / 10) (1 / 2)))
        = 1 * (7 / 10 - 8 / 10) + 1 * toc (exIn (7 / 10) (1 / 2)) + 3 := rfl
    rw [h]
    intro h0
    linarith
  t2 := fun _ => lin_diff _ _ _ _ _
  z2 := fun _ => by norm_num [exTabs, lin, sos, exIn]

theorem ex_super (taper : ℝ) (h : taper ≠ -1) : SuperOk exTabs (exIn (12 / 10) taper) where
  hm := by norm_num [delm, exIn]
  ht := h
  hc := by simp [exIn]
  hs := by norm_num [exIn]
  hl := by norm_num [exIn]
  hf := by norm_num [exIn]
  t3 := lin_diff _ _ _ _ _
  z3 := by norm_num [exTabs, lin, delm, exIn]
  t4 := fun _ => lin_diff _ _ _ _ _
  z4 := fun _ => by norm_num [exTabs, lin, sos, exIn]
  hm1 := fun _ => by norm_num [exIn]
  t5 := fun _ _ => lin_diff _ _ _ _ _

example : SuperOk exTabs (exIn (12 / 10) (1 / 2)) ∧ (exIn (12 / 10) (1 / 2)).taper ≠ 1 :=
  ⟨ex_super _ (by norm_num), by norm_num [exIn]⟩

example : SuperOk exTabs (exIn (12 / 10) 1) ∧ 0 < (exIn (12 / 10) 1).fuse ∧
    1 < (exIn (12 / 10) 1).mach ∧ (exIn (12 / 10) 1).taper = 1 :=
  ⟨ex_super _ (by norm_num), by norm_num [exIn], by norm_num [exIn], rfl⟩

/-- Entries of an earlier supersonic call at a node which is subsonic now. -/
example : partials exTabs (partials exTabs (fun _ => none) (exIn (12 / 10) (1 / 2)))
    (exIn (7 / 10) (1 / 2)) .AR = some 0 := by
  rw [partials, if_neg (by norm_num [delm, exIn]), subAssign, if_pos (by norm_num [exIn])]
  simp [assign, Function.update]

end Verif.CompressDrag
