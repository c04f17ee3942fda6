import Verif.Model.InducedDrag
import Mathlib.Analysis.SpecialFunctions.Pow.Deriv
import Mathlib.Analysis.SpecialFunctions.Sqrt
import Mathlib.Analysis.SpecialFunctions.Trigonometric.Deriv
import Mathlib.Analysis.SpecialFunctions.Trigonometric.ArctanDeriv
import Mathlib.Analysis.SpecialFunctions.Trigonometric.Bounds
import Mathlib.Analysis.Real.Pi.Bounds
import Mathlib.Tactic.FieldSimp
import Mathlib.Tactic.Ring
import Mathlib.Tactic.Linarith
import Mathlib.Tactic.LinearCombination

/-! ## C97: induced drag and buffet lift, their derivatives and their angle -/

namespace Verif.InducedDrag
open Real Filter Topology

theorem set_get (i : In) (w : Wrt) : i.set w (i.get w) = i := by cases w <;> rfl

/-! ### The forward sweep factor -/

theorem fact3_pos (ts h : ℝ) : 0 < fact3 ts h := by unfold fact3; positivity

theorem fact4_pos (ts h : ℝ) : 0 < fact4 ts h := by unfold fact4; positivity

theorem pow32 {x : ℝ} (hx : 0 < x) : x ^ (3 / 2 : ℝ) = x * √x := by
  rw [show (3 / 2 : ℝ) = 1 + 1 / 2 by norm_num, rpow_add hx, rpow_one, sqrt_eq_rpow]

theorem invsqrt_deriv {u : ℝ → ℝ} {u' t : ℝ} (hu : HasDerivAt u u' t) :
    HasDerivAt (fun s => 1 / √(1 + u s ^ 2))
      (-(1 / 2) / (1 + u t ^ 2) ^ (3 / 2 : ℝ) * 2 * u t * u') t := by
  have hp : 0 < 1 + u t ^ 2 := by positivity
  have hq : √(1 + u t ^ 2) ≠ 0 := (Real.sqrt_pos.2 hp).ne'
  have e := (hasDerivAt_const t (1 : ℝ)).div
    (((hu.pow 2).const_add 1).sqrt hp.ne') hq
  refine hd_congr e (fun s => rfl) ?_
  have hs : √(1 + u t ^ 2) ^ 2 = 1 + u t ^ 2 := Real.sq_sqrt hp.le
  simp only [Pi.pow_apply, Nat.cast_ofNat, Nat.add_one_sub_one, pow_one]
  rw [pow32 hp]
  generalize √(1 + u t ^ 2) = q at *
  rw [← hs]
  field_simp
  ring

theorem cosA_curve (ts h : ℝ) : Curve2 cosA ts h (dAts ts h) (dAth ts h) := by
  intro f g f' g' t hf hg df dg
  refine hd_congr (invsqrt_deriv (df.sub (dg.const_mul 3))) (fun s => rfl) ?_
  simp only [Pi.sub_apply, hf, hg, dAts, dAth, fact3]
  ring

theorem cosB_curve (ts h : ℝ) : Curve2 cosB ts h (dBt ts h) (dBt ts h) := by
  intro f g f' g' t hf hg df dg
  refine hd_congr (invsqrt_deriv (df.add dg)) (fun s => rfl) ?_
  simp only [Pi.add_apply, hf, hg, dBt, fact4]
  ring

theorem cayt_curve {m a b : ℝ} (ha : factC m a ≠ 0) (hb : factC m b ≠ 0) (hg : factG m b ≠ 0) :
    Curve3 caytC m a b (dCm m a b) (dCa m a b) (dCb m a b) := by
  intro f g h f' g' h' t hf hg' hh df dg dh
  have hA : factC (f t) (g t) ≠ 0 := by rw [hf, hg']; exact ha
  have hB : factC (f t) (h t) ≠ 0 := by rw [hf, hh]; exact hb
  have hG : factG (f t) (h t) ≠ 0 := by rw [hf, hh]; exact hg
  have gd : ∀ {k : ℝ → ℝ} {k' : ℝ}, HasDerivAt k k' t → factC (f t) (k t) ≠ 0 →
      HasDerivAt (fun s => factG (f s) (k s))
        (-(11 / 100) * (f' * k t + f t * k') / factC (f t) (k t) ^ 2) t := by
    intro k k' dk hk
    have e := ((hasDerivAt_const t (11 / 100 : ℝ)).div ((df.mul dk).const_sub (11 / 10))
      hk).const_sub (11 / 10)
    refine hd_congr e (fun s => rfl) ?_
    show _ = -((0 * factC (f t) (k t) - _) / factC (f t) (k t) ^ 2)
    ring
  have e := ((((gd dg hA).div (gd dh hB) hG).sub_const 1).pow 2).const_mul (1 / 2 : ℝ)
  refine hd_congr e (fun s => rfl) ?_
  simp only [Pi.div_apply, Nat.cast_ofNat, Nat.add_one_sub_one, pow_one]
  rw [hf, hg', hh]
  simp only [dCm, dCa, dCb]
  generalize factG m a = ga at *
  generalize factG m b = gb at *
  generalize factC m a = ca at *
  generalize factC m b = cb at *
  field_simp
  ring

/-- The factor along every change of the Mach number, the tangent and the taper term. -/
theorem cayt_full {i : In} (ha : factC i.mach (cosA (tsw i) (th i)) ≠ 0)
    (hb : factC i.mach (cosB (tsw i) (th i)) ≠ 0) (hg : factG i.mach (cosB (tsw i) (th i)) ≠ 0) :
    Curve3 (fun m ts h => caytC m (cosA ts h) (cosB ts h)) i.mach (tsw i) (th i)
      (dCm i.mach (cosA (tsw i) (th i)) (cosB (tsw i) (th i))) (dCts i) (dCth i) := by
  intro f g h f' g' h' t hf hg' hh df dg dh
  have A := cosA_curve (tsw i) (th i) g h g' h' t hg' hh dg dh
  have B := cosB_curve (tsw i) (th i) g h g' h' t hg' hh dg dh
  have q := cayt_curve ha hb hg f (fun s => cosA (g s) (h s)) (fun s => cosB (g s) (h s)) f' _ _ t
    hf (by rw [hg', hh]) (by rw [hg', hh]) df A B
  refine hd_congr q (fun s => rfl) ?_
  simp only [dCts, dCth]
  ring

/-! ### The lift coefficient and the span efficiency -/

/-- Nothing the component divides by is zero and the aspect ratio is positive. -/
structure Ok (i : In) : Prop where
  mach : i.mach ≠ 0
  P : i.P ≠ 0
  sref : i.sref ≠ 0
  gamma : i.gamma ≠ 0
  AR : 0 < i.AR
  se : se i ≠ 0

theorem cl_deriv {i : In} (h : Ok i) (w : Wrt) :
    HasDerivAt (fun t => cl (i.set w t)) (dcl i w) (i.get w) := by
  obtain ⟨hm, hP, hS, hg, -, -⟩ := h
  cases w
  case mach =>
    have e := ((hasDerivAt_const i.mach (2 * i.lift)).div
      (((hasDerivAt_id i.mach).pow 2).const_mul (i.sref * i.gamma * i.P))
      (by simp only [Pi.pow_apply, id]; positivity))
    refine hd_congr e (fun t => rfl) ?_
    simp only [Pi.pow_apply, id, dcl]
    field_simp
    ring
  case lift =>
    refine affine_deriv fun t => ?_
    simp only [cl, In.set, dcl]; ring
  case P =>
    have e := ((hasDerivAt_const i.P (2 * i.lift)).div
      (((hasDerivAt_id i.P).const_mul (i.sref * i.gamma)).mul_const (i.mach ^ 2))
      (by simp only [id]; positivity))
    refine hd_congr e (fun t => rfl) ?_
    simp only [id, dcl]
    field_simp
    ring
  case sref =>
    have e := ((hasDerivAt_const i.sref (2 * i.lift)).div
      ((((hasDerivAt_id i.sref).mul_const i.gamma).mul_const i.P).mul_const (i.mach ^ 2))
      (by simp only [id]; positivity))
    refine hd_congr e (fun t => rfl) ?_
    simp only [id, dcl]
    field_simp
    ring
  all_goals exact hasDerivAt_const _ (cl i)

/-- The derivative of the span efficiency which the code uses. -/
noncomputable def dse (i : In) : Wrt → ℝ
  | .AR => if i.redux then if i.sef ≤ 3 / 10 then dse0AR i else dse0AR i * i.sef else 0
  | .TR => if i.redux then if i.sef ≤ 3 / 10 then dse0TR i else dse0TR i * i.sef else 0
  | .sef => if i.sef ≤ 3 / 10 then 1 else se0 i
  | _ => 0

theorem se0_AR {i : In} (hA : 0 < i.AR) (hr : i.redux = true) :
    HasDerivAt (fun t => se0 (i.set .AR t)) (dse0AR i) i.AR := by
  have s := Real.hasDerivAt_sqrt hA.ne'
  have e := (((hasDerivAt_id i.AR).const_mul (1 / 10 : ℝ)).mul
    (((s.const_mul (4226 / 10000 : ℝ)).sub_const (35 / 100 * i.TR)).sub_const
      (143 / 1000))).const_add 1
  refine hd_congr e (fun t => ?_) ?_
  · simp only [se0, In.set, hr, if_true]
    rfl
  · have hq : √i.AR ≠ 0 := (Real.sqrt_pos.2 hA).ne'
    simp only [dse0AR, id]
    field_simp
    ring

theorem se_deriv {i : In} (h : Ok i) (hs : i.sef ≠ 3 / 10) (w : Wrt) :
    HasDerivAt (fun t => se (i.set w t)) (dse i w) (i.get w) := by
  cases w
  case AR =>
    by_cases hr : i.redux = true
    · have e := se0_AR h.AR hr
      by_cases c : i.sef ≤ 3 / 10
      · refine hd_congr (e.add_const i.sef) (fun t => ?_) ?_
        · rw [se, if_pos (show (i.set .AR t).sef ≤ 3 / 10 from c)]; rfl
        · simp [dse, hr, c]
      · refine hd_congr (e.mul_const i.sef) (fun t => ?_) ?_
        · rw [se, if_neg (show ¬ (i.set .AR t).sef ≤ 3 / 10 from c)]; rfl
        · simp [dse, hr, c]
    · have : dse i .AR = 0 := by simp [dse, hr]
      rw [this]
      refine hd_congr (hasDerivAt_const _ (se i)) (fun t => ?_) rfl
      simp only [se, se0, In.set, hr]
      rfl
  case TR =>
    by_cases hr : i.redux = true
    · have e : HasDerivAt (fun t => se0 (i.set .TR t)) (dse0TR i) i.TR := by
        refine affine_deriv fun t => ?_
        simp only [se0, In.set, hr, if_true, dse0TR]
        ring
      by_cases c : i.sef ≤ 3 / 10
      · refine hd_congr (e.add_const i.sef) (fun t => ?_) ?_
        · rw [se, if_pos (show (i.set .TR t).sef ≤ 3 / 10 from c)]; rfl
        · simp [dse, hr, c]
      · refine hd_congr (e.mul_const i.sef) (fun t => ?_) ?_
        · rw [se, if_neg (show ¬ (i.set .TR t).sef ≤ 3 / 10 from c)]; rfl
        · simp [dse, hr, c]
    · have : dse i .TR = 0 := by simp [dse, hr]
      rw [this]
      refine hd_congr (hasDerivAt_const _ (se i)) (fun t => ?_) rfl
      simp only [se, se0, In.set, hr]
      rfl
  case sef =>
    rcases lt_or_gt_of_ne hs with c | c
    · have : dse i .sef = 1 := by simp [dse, c.le]
      rw [this]
      refine ((hasDerivAt_id i.sef).const_add (se0 i)).congr_of_eventuallyEq ?_
      filter_upwards [eventually_lt_nhds c] with t ht
      rw [se, if_pos (show (i.set .sef t).sef ≤ 3 / 10 from le_of_lt ht)]
      rfl
    · have : dse i .sef = se0 i * 1 := by simp [dse, c.not_ge]
      rw [this]
      refine ((hasDerivAt_id i.sef).const_mul (se0 i)).congr_of_eventuallyEq ?_
      filter_upwards [eventually_gt_nhds c] with t ht
      rw [se, if_neg (show ¬ (i.set .sef t).sef ≤ 3 / 10 from not_le.2 ht)]
      rfl
  all_goals exact hasDerivAt_const _ (se i)

/-! ### The partial derivatives of the component -/

theorem base_deriv {i : In} (h : Ok i) (hs : i.sef ≠ 3 / 10) (w : Wrt) :
    HasDerivAt (fun t => base (i.set w t)) (partBase i w) (i.get w) := by
  have hA := h.AR
  have hse := h.se
  have hpi := Real.pi_pos
  have hden : π * i.AR * se i ≠ 0 := mul_ne_zero (mul_pos hpi hA).ne' hse
  have dA : HasDerivAt (fun t => (i.set w t).AR) (if w = .AR then 1 else 0) (i.get w) := by
    cases w
    case AR => exact hasDerivAt_id _
    all_goals exact hasDerivAt_const _ i.AR
  have hd' : π * (i.set w (i.get w)).AR * se (i.set w (i.get w)) ≠ 0 := by rw [set_get]; exact hden
  have e := ((cl_deriv h w).pow 2).div ((dA.const_mul π).mul (se_deriv h hs w)) hd'
  refine hd_congr e (fun t => rfl) ?_
  simp only [Pi.pow_apply, Pi.mul_apply, set_get, Nat.cast_ofNat, Nat.add_one_sub_one, pow_one]
  have hA' := hA.ne'
  cases w
  case AR =>
    by_cases hr : i.redux = true <;> by_cases c : i.sef ≤ 3 / 10 <;>
      simp only [partBase, dse, dcl, dspan, hr, c, if_true, if_false, Bool.false_eq_true] <;>
      field_simp <;> ring
  case TR =>
    by_cases hr : i.redux = true <;> by_cases c : i.sef ≤ 3 / 10 <;>
      simp only [partBase, dse, dcl, dspan, hr, c, if_true, if_false, Bool.false_eq_true,
        reduceCtorEq] <;>
      field_simp <;> ring
  case sef =>
    by_cases c : i.sef ≤ 3 / 10 <;>
      simp only [partBase, dse, dcl, dspan, c, if_true, if_false, reduceCtorEq] <;>
      field_simp <;> ring
  all_goals
    simp only [partBase, dse, dcl, reduceCtorEq, if_false]
    field_simp
    ring

theorem fwd_deriv {i : In} (h : Ok i) (hT : i.TR ≠ -1) (hc : cos (i.sweep / degree) ≠ 0)
    (ha : factC i.mach (cosA (tsw i) (th i)) ≠ 0)
    (hb : factC i.mach (cosB (tsw i) (th i)) ≠ 0) (hg : factG i.mach (cosB (tsw i) (th i)) ≠ 0)
    (w : Wrt) :
    HasDerivAt (fun t => cayt (i.set w t) * cl (i.set w t) ^ 2) (partFwd i w) (i.get w) := by
  have hA := h.AR.ne'
  have C := cayt_full ha hb hg
  have hdeg : degree ≠ 0 := by unfold degree; positivity
  have hn : 1 + i.TR ≠ 0 := fun h => hT (by linarith)
  have K : ∀ {k : ℝ}, HasDerivAt (fun t => cayt (i.set w t)) k (i.get w) →
      HasDerivAt (fun t => cayt (i.set w t) * cl (i.set w t) ^ 2)
        (k * cl i ^ 2 + cayt i * (2 * cl i * dcl i w)) (i.get w) := by
    intro k hk
    refine hd_congr (hk.mul ((cl_deriv h w).pow 2)) (fun t => rfl) ?_
    simp only [Pi.pow_apply, set_get, Nat.cast_ofNat, Nat.add_one_sub_one, pow_one]
  cases w
  case mach =>
    have q := C (fun t => t) (fun _ => tsw i) (fun _ => th i) 1 0 0 i.mach rfl rfl rfl
      (hasDerivAt_id _) (hasDerivAt_const _ _) (hasDerivAt_const _ _)
    refine hd_congr (K q) (fun t => rfl) ?_
    simp only [partFwd]; ring
  case AR =>
    have d : HasDerivAt (fun t => th (i.set .AR t)) (-(1 - i.TR) * (1 / (1 + i.TR)) / i.AR ^ 2)
        i.AR := by
      have e := (hasDerivAt_const i.AR ((1 - i.TR) / (1 + i.TR))).div (hasDerivAt_id i.AR) hA
      refine hd_congr e (fun t => rfl) ?_
      simp only [id]; ring
    have q := C (fun _ => i.mach) (fun _ => tsw i) (fun t => th (i.set .AR t)) 0 0 _ i.AR rfl rfl
      rfl (hasDerivAt_const _ _) (hasDerivAt_const _ _) d
    refine hd_congr (K q) (fun t => rfl) ?_
    simp only [partFwd, dcl]; ring
  case sweep =>
    have d : HasDerivAt (fun t => tsw (i.set .sweep t)) (1 / (degree * cos (i.sweep / degree) ^ 2))
        i.sweep := by
      have e := (Real.hasDerivAt_tan hc).comp i.sweep ((hasDerivAt_id i.sweep).div_const degree)
      refine hd_congr e (fun t => rfl) ?_
      field_simp
    have q := C (fun _ => i.mach) (fun t => tsw (i.set .sweep t)) (fun _ => th i) 0 _ 0 i.sweep rfl
      rfl rfl (hasDerivAt_const _ _) d (hasDerivAt_const _ _)
    refine hd_congr (K q) (fun t => rfl) ?_
    simp only [partFwd, dcl]; ring
  case TR =>
    have d : HasDerivAt (fun t => th (i.set .TR t))
        (-(1 / (1 + i.TR) + (1 - i.TR) * (1 / (1 + i.TR)) ^ 2) / i.AR) i.TR := by
      have e := (((hasDerivAt_id i.TR).const_sub 1).div ((hasDerivAt_id i.TR).const_add 1)
        hn).div_const i.AR
      refine hd_congr e (fun t => rfl) ?_
      simp only [id]
      field_simp
      ring
    have q := C (fun _ => i.mach) (fun _ => tsw i) (fun t => th (i.set .TR t)) 0 0 _ i.TR rfl rfl
      rfl (hasDerivAt_const _ _) (hasDerivAt_const _ _) d
    refine hd_congr (K q) (fun t => rfl) ?_
    simp only [partFwd, dcl]; ring
  all_goals
    refine hd_congr (K (hasDerivAt_const _ (cayt i))) (fun t => rfl) ?_
    simp only [partFwd, dcl]
    ring

/-- All eight derivatives are right for a wing swept back. -/
theorem aft_partials_partial {i : In} (h : Ok i) (hs : i.sef ≠ 3 / 10) (hw : 0 < i.sweep) (w : Wrt) :
    HasDerivAt (fun t => drag (i.set w t)) (part i w) (i.get w) := by
  rw [part, if_neg hw.not_gt]
  refine (base_deriv h hs w).congr_of_eventuallyEq ?_
  have c : ContinuousAt (fun t => (i.set w t).sweep) (i.get w) := by
    cases w
    case sweep => exact continuousAt_id
    all_goals exact continuousAt_const (y := i.sweep)
  have h0 : 0 < (i.set w (i.get w)).sweep := by rw [set_get]; exact hw
  filter_upwards [c.eventually_const_lt h0] with t ht
  rw [drag, if_neg (not_lt.2 (le_of_lt ht))]

/-- All eight derivatives are right for a wing swept forward, as derivatives of the value which the
code computes. -/
theorem fwd_partials_partial {i : In} (h : Ok i) (hs : i.sef ≠ 3 / 10) (hw : i.sweep < 0)
    (hT : i.TR ≠ -1) (hc : cos (i.sweep / degree) ≠ 0)
    (ha : factC i.mach (cosA (tsw i) (th i)) ≠ 0)
    (hb : factC i.mach (cosB (tsw i) (th i)) ≠ 0) (hg : factG i.mach (cosB (tsw i) (th i)) ≠ 0)
    (w : Wrt) :
    HasDerivAt (fun t => drag (i.set w t)) (part i w) (i.get w) := by
  rw [part, if_pos hw]
  refine ((base_deriv h hs w).add (fwd_deriv h hT hc ha hb hg w)).congr_of_eventuallyEq ?_
  have c : ContinuousAt (fun t => (i.set w t).sweep) (i.get w) := by
    cases w
    case sweep => exact continuousAt_id
    all_goals exact continuousAt_const (y := i.sweep)
  have h0 : (i.set w (i.get w)).sweep < 0 := by rw [set_get]; exact hw
  filter_upwards [c.eventually_lt_const h0] with t ht
  rw [drag, if_pos ht]
  rfl

/-- The forward sweep never lowers the drag. -/
theorem fwd_adds (i : In) : base i ≤ drag i := by
  rw [drag]; split
  · have : 0 ≤ cayt i * cl i ^ 2 := by unfold cayt caytC; positivity
    linarith
  · exact le_rfl

/-- Without taper the forward sweep changes nothing. -/
theorem fwd_untapered {i : In} (h : i.TR = 1)
    (hg : factG i.mach (cosB (tsw i) (th i)) ≠ 0) : drag i = base i := by
  have e : cosA (tsw i) (th i) = cosB (tsw i) (th i) := by
    simp [cosA, cosB, fact3, fact4, th, h]
  rw [drag]; split
  · rw [cayt, caytC, e, div_self hg]; ring
  · rfl

/-- With a span efficiency of one the base is the classical induced drag. -/
theorem base_classical {i : In} (hr : i.redux = false) (hs : i.sef = 1) :
    base i = cl i ^ 2 / (π * i.AR) := by
  have : se i = 1 := by
    rw [se, if_neg (by rw [hs]; norm_num), se0, hr, hs]; norm_num
  rw [base, this, mul_one]

/-! ### The angle -/

/-- The angle which the code takes the tangent and the cosine of is the sweep times `(180/π)²` too
large. -/
theorem angle_scale (s : ℝ) : s / degree = (180 / π) ^ 2 * (s * (π / 180)) := by
  unfold degree
  have := Real.pi_pos
  field_simp

/-- The tangent of the code repeats every `π²/180` degrees, about a twentieth of a degree. -/
theorem tsw_periodic_violated (i : In) : tsw { i with sweep := i.sweep + π ^ 2 / 180 } = tsw i := by
  have : (i.sweep + π ^ 2 / 180) / degree = i.sweep / degree + π := by
    unfold degree
    have := Real.pi_pos
    field_simp
  simp only [tsw, this]
  exact Real.tan_add_pi _

/-- A sweep of a seventieth of a degree forward is taken for one of 45 degrees, and at Mach 1 the
factor then divides by zero; with the right angle it does not. -/
theorem angle_violated :
    ∃ i : In, -(2 / 100) < i.sweep ∧ i.sweep < 0 ∧ i.mach = 1 ∧
      tsw i = -1 ∧ factG i.mach (cosB (tsw i) (th i)) = 0 ∧
      -(1 / 1000) < tan (i.sweep * (π / 180)) ∧
      factG i.mach (cosB (tan (i.sweep * (π / 180))) (th i)) ≠ 0 := by
  have p0 := Real.pi_pos
  have p1 := Real.pi_lt_d2
  have hsq : π ^ 2 < 10 := by nlinarith
  let i : In :=
    { mach := 1, lift := 1, P := 1, sref := 1, AR := 1, sef := 1, sweep := -(π ^ 2 / 720), TR := 0,
      redux := false, gamma := 1 }
  have hts : tsw i = -1 := by
    have : i.sweep / degree = -(π / 4) := by
      show -(π ^ 2 / 720) / (π / 180) = _
      field_simp
      norm_num
    rw [tsw, this, Real.tan_neg, Real.tan_pi_div_four]
  have hth : th i = 1 := by simp [th, i]
  have htan : -(1 / 1000) < tan (i.sweep * (π / 180)) ∧ tan (i.sweep * (π / 180)) < 0 := by
    have e : i.sweep * (π / 180) = -(π ^ 3 / 129600) := by
      show -(π ^ 2 / 720) * (π / 180) = _
      ring
    rw [e, Real.tan_neg]
    have h3 : π ^ 3 < 32 := by nlinarith
    have hx0 : 0 < π ^ 3 / 129600 := by positivity
    have hx1 : π ^ 3 / 129600 < 1 / 4000 := by linarith
    constructor
    · have hc : (1 / 2 : ℝ) < cos (π ^ 3 / 129600) := by
        have := Real.one_sub_sq_div_two_le_cos (x := π ^ 3 / 129600)
        nlinarith
      have hs : sin (π ^ 3 / 129600) < π ^ 3 / 129600 := Real.sin_lt hx0
      rw [tan_eq_sin_div_cos, neg_lt_neg_iff, div_lt_iff₀ (by linarith)]
      linarith
    · have := Real.tan_pos_of_pos_of_lt_pi_div_two hx0 (by linarith [Real.pi_gt_three])
      linarith
  refine ⟨i, ?_, ?_, rfl, hts, ?_, htan.1, ?_⟩
  · show -(2 / 100) < -(π ^ 2 / 720)
    linarith
  · show -(π ^ 2 / 720) < 0
    have : 0 < π ^ 2 / 720 := by positivity
    linarith
  · rw [hts, hth]
    norm_num [factG, factC, cosB, fact4, i]
  · rw [hth]
    obtain ⟨h1, h2⟩ := htan
    generalize tan (i.sweep * (π / 180)) = t at *
    have h4 : (36 / 25 : ℝ) < fact4 t 1 := by unfold fact4; nlinarith
    have h5 : (6 / 5 : ℝ) < √(fact4 t 1) := by
      rw [Real.lt_sqrt (by norm_num)]; norm_num; exact h4
    have h6 : cosB t 1 < 5 / 6 := by
      rw [cosB, div_lt_iff₀ (by linarith)]; linarith
    have h7 : 1 / 5 < factC i.mach (cosB t 1) := by
      show 1 / 5 < 11 / 10 - 1 * cosB t 1
      linarith
    have h8 : 11 / 100 / factC i.mach (cosB t 1) < 55 / 100 := by
      rw [div_lt_iff₀ (by linarith)]; linarith
    have : 0 < factG i.mach (cosB t 1) := by
      unfold factG; linarith
    exact this.ne'

/-! ### Buffet lift -/

theorem b_set_get (i : BIn) (w : BWrt) : i.set w (i.get w) = i := by cases w <;> rfl

/-- All six derivatives of the buffet lift are right, as derivatives of the value which the code
computes. -/
theorem buffet_partials {T : Tab} {i : BIn} (hT : T.DiffAt (i.TC ^ (2 / 3 : ℝ)) (i.mach - i.mdes))
    (hTC : 0 < i.TC) (hc : cos (i.sweep / degree) ≠ 0) (w : BWrt) :
    HasDerivAt (fun t => buffet T (i.set w t)) (bPart T i w) (i.get w) := by
  have C := hT.curve
  have hdeg : degree ≠ 0 := by unfold degree; have := Real.pi_pos; positivity
  cases w
  case mach =>
    have q := C (fun _ => i.TC ^ (2 / 3 : ℝ)) (fun t => t - i.mdes) 0 1 i.mach rfl rfl
      (hasDerivAt_const _ _) ((hasDerivAt_id _).sub_const _)
    refine hd_congr (q.mul_const (i.AR * (1 + i.cam / 10) / cos (i.sweep / degree)))
      (fun t => rfl) ?_
    simp only [bPart, cosFact, fclb]; ring
  case mdes =>
    have q := C (fun _ => i.TC ^ (2 / 3 : ℝ)) (fun t => i.mach - t) 0 (-1) i.mdes rfl rfl
      (hasDerivAt_const _ _) ((hasDerivAt_id _).const_sub _)
    refine hd_congr (q.mul_const (i.AR * (1 + i.cam / 10) / cos (i.sweep / degree)))
      (fun t => rfl) ?_
    simp only [bPart, cosFact, fclb]; ring
  case AR =>
    refine affine_deriv fun t => ?_
    simp only [buffet, BIn.set, bPart, cosFact, fclb]; ring
  case TC =>
    have d : HasDerivAt (fun t : ℝ => t ^ (2 / 3 : ℝ)) (2 / 3 * i.TC ^ (-1 / 3 : ℝ)) i.TC := by
      have := Real.hasDerivAt_rpow_const (x := i.TC) (p := (2 / 3 : ℝ)) (Or.inl hTC.ne')
      refine hd_congr this (fun t => rfl) ?_
      norm_num
    have q := C (fun t => t ^ (2 / 3 : ℝ)) (fun _ => i.mach - i.mdes) _ 0 i.TC rfl rfl
      d (hasDerivAt_const _ _)
    refine hd_congr (q.mul_const (i.AR * (1 + i.cam / 10) / cos (i.sweep / degree)))
      (fun t => rfl) ?_
    simp only [bPart, cosFact, fclb]; ring
  case sweep =>
    have e := ((hasDerivAt_const i.sweep (i.AR * (1 + i.cam / 10))).div
      ((hasDerivAt_cos _).comp i.sweep ((hasDerivAt_id i.sweep).div_const degree)) hc).const_mul
        (fclb T.val i)
    refine hd_congr e (fun t => rfl) ?_
    simp only [bPart, cosFact, Function.comp, id]
    field_simp
    ring
  case cam =>
    refine affine_deriv fun t => ?_
    simp only [buffet, BIn.set, bPart, cosFact, fclb]; ring

/-- For a sweep of `π²/180` degrees, a twentieth of a degree, the lift margin changes its sign; with
the right angle it is positive. -/
theorem buffet_angle_violated {T : Tab} {i : BIn} (hs : i.sweep = π ^ 2 / 180)
    (hF : 0 < fclb T.val i) (hA : 0 < i.AR) (hc : 0 ≤ i.cam) :
    buffet T i < 0 ∧
    0 < fclb T.val i * (i.AR * (1 + i.cam / 10) / cos (i.sweep * (π / 180))) := by
  have p0 := Real.pi_pos
  have p1 := Real.pi_lt_d2
  have k : 0 < i.AR * (1 + i.cam / 10) := by positivity
  constructor
  · have e : i.sweep / degree = π := by
      rw [hs, degree]; field_simp
    rw [buffet, e, Real.cos_pi, div_neg, div_one, mul_neg]
    have := mul_pos hF k
    linarith
  · have h3 : π ^ 3 < 32 := by nlinarith [sq_nonneg π]
    have e : i.sweep * (π / 180) = π ^ 3 / 32400 := by rw [hs]; ring
    have : 0 < cos (i.sweep * (π / 180)) := by
      rw [e]
      refine Real.cos_pos_of_mem_Ioo ⟨?_, ?_⟩
      · have : 0 < π ^ 3 / 32400 := by positivity
        linarith
      · linarith [Real.pi_gt_three]
    positivity

/-- Without sweep the angle does not matter. -/
theorem buffet_unswept {T : Tab} {i : BIn} (hs : i.sweep = 0) :
    buffet T i = fclb T.val i * (i.AR * (1 + i.cam / 10)) := by
  rw [buffet, hs]; simp

/-! ### Cases which meet the hypotheses -/

/-- A forward swept wing. -/
noncomputable def exIn (sweep : ℝ) : In where
  mach := 1 / 2
  lift := 1
  P := 1
  sref := 1
  AR := 1
  sef := 1
  sweep := sweep
  TR := 1
  redux := false
  gamma := 1

theorem ex_ok (s : ℝ) : Ok (exIn s) := by
  refine ⟨?_, ?_, ?_, ?_, ?_, ?_⟩ <;> norm_num [exIn, se, se0]

example : Ok (exIn 10) ∧ (exIn 10).sef ≠ 3 / 10 ∧ 0 < (exIn 10).sweep :=
  ⟨ex_ok _, by norm_num [exIn], by norm_num [exIn]⟩

example : let i := exIn (-(π ^ 2 / 180))
    Ok i ∧ i.sef ≠ 3 / 10 ∧ i.sweep < 0 ∧ i.TR ≠ -1 ∧ cos (i.sweep / degree) ≠ 0 ∧
    factC i.mach (cosA (tsw i) (th i)) ≠ 0 ∧ factC i.mach (cosB (tsw i) (th i)) ≠ 0 ∧
    factG i.mach (cosB (tsw i) (th i)) ≠ 0 := by
  intro i
  have p0 := Real.pi_pos
  have e : i.sweep / degree = -π := by
    show -(π ^ 2 / 180) / (π / 180) = _
    field_simp
  have ht : tsw i = 0 := by rw [tsw, e, Real.tan_neg, Real.tan_pi, neg_zero]
  have hh : th i = 0 := by norm_num [th, i, exIn]
  refine ⟨ex_ok _, by norm_num [i, exIn], ?_, by norm_num [i, exIn], ?_, ?_, ?_, ?_⟩
  · show -(π ^ 2 / 180) < 0
    have : 0 < π ^ 2 / 180 := by positivity
    linarith
  · rw [e, Real.cos_neg, Real.cos_pi]; norm_num
  · rw [ht, hh]; norm_num [factC, cosA, fact3, i, exIn]
  · rw [ht, hh]; norm_num [factC, cosB, fact4, i, exIn]
  · rw [ht, hh]; norm_num [factG, factC, cosB, fact4, i, exIn]

example : let T : Tab := ⟨fun _ _ => 1, fun _ _ => 0, fun _ _ => 0⟩
    let i : BIn :=
      { mach := 1 / 2, mdes := 8 / 10, AR := 10, cam := 1, sweep := π ^ 2 / 180, TC := 1 / 10 }
    T.DiffAt (i.TC ^ (2 / 3 : ℝ)) (i.mach - i.mdes) ∧ 0 < i.TC ∧ cos (i.sweep / degree) ≠ 0 ∧
    0 < fclb T.val i ∧ 0 < i.AR ∧ 0 ≤ i.cam := by
  intro T i
  have p0 := Real.pi_pos
  have e : i.sweep / degree = π := by
    show π ^ 2 / 180 / (π / 180) = _
    field_simp
  refine ⟨?_, by norm_num [i], by rw [e, Real.cos_pi]; norm_num, by norm_num [fclb, T],
    by norm_num [i], by norm_num [i]⟩
  unfold Tab.DiffAt
  simpa [T] using hasFDerivAt_const (1 : ℝ) ((i.TC ^ (2 / 3 : ℝ), i.mach - i.mdes) : ℝ × ℝ)

end Verif.InducedDrag
