import Verif.Model.BodyTank
import Verif.Props.SmoothMath
import Verif.Lemmas.VecDeriv
import Mathlib.Tactic.FieldSimp
import Mathlib.Tactic.Ring
import Mathlib.Tactic.Linarith
import Mathlib.Tactic.LinearCombination

/-! ## C99: body tanks -/

namespace Verif.BodyTank
open Real Filter Topology

theorem set_get (i : In) (w : Wrt) : i.set w (i.get w) = i := by cases w <;> rfl

/-! ### Values -/

/-- Without smoothing no output but the capacity can be negative. -/
theorem hard_nonneg (i : In) : 0 ≤ (hard i).aux ∧ 0 ≤ (hard i).vol ∧ 0 ≤ (hard i).wmin := by
  refine ⟨?_, le_max_right _ _, ?_⟩
  · show 0 ≤ hAux i
    rw [hAux]; split <;> linarith
  · show 0 ≤ hWmin i
    rw [hWmin]; split <;> linarith

/-- The auxiliary tank holds exactly what the wing cannot. -/
theorem hard_aux (i : In) : (hard i).aux = max (i.req - i.wmax) 0 := by
  show hAux i = _
  rw [hAux]; split
  · rw [max_eq_right (by linarith)]
  · rw [max_eq_left (by linarith)]

/-- The minimum in the wing and what fits into the extra volume cover the minimum fuel, and the wing
holds nothing when the extra volume is enough. -/
theorem hard_wmin (i : In) :
    (hard i).wmin = max (i.fmin - (hard i).volMass) 0 ∧
    i.fmin ≤ (hard i).wmin + (hard i).volMass := by
  have e : (hard i).wmin = max (i.fmin - (hard i).volMass) 0 := by
    show hWmin i = max (i.fmin - hVol i * i.rho) 0
    rw [hWmin]; split
    · rw [max_eq_right (by linarith)]
    · rw [max_eq_left (by linarith)]
  refine ⟨e, ?_⟩
  rw [e]
  have := le_max_left (i.fmin - (hard i).volMass) 0
  linarith

/-- The three way choice of the capacity is a minimum: the fuel never brings the aircraft over its
gross mass. -/
theorem hard_cap (i : In) :
    (hard i).cap = min (i.fuel + (hard i).aux) (i.gross - i.oew) + i.unus := by
  show hAvail i + i.unus = min (i.fuel + hAux i) (i.gross - i.oew) + i.unus
  congr 1
  rw [hAvail]; split
  · rw [min_eq_left (by linarith)]
  · split
    · rw [min_eq_right (by linarith)]
    · have : i.fuel + hAux i = i.gross - i.oew := by linarith
      rw [this, min_self]; ring

/-! ### Derivatives without smoothing -/

/-- The derivative of one input by another. -/
def dl (a w : Wrt) : ℝ := if a = w then 1 else 0

theorem get_deriv (i : In) (a w : Wrt) :
    HasDerivAt (fun t => (i.set w t).get a) (dl a w) (i.get w) := by
  by_cases h : a = w
  · subst h
    have : (fun t => (i.set a t).get a) = fun t => t := by funext t; cases a <;> rfl
    rw [this, dl, if_pos rfl]
    exact hasDerivAt_id _
  · have : (fun t => (i.set w t).get a) = fun _ => i.get a := by
      funext t; cases a <;> cases w <;> first | exact absurd rfl h | rfl
    rw [this, dl, if_neg h]
    exact hasDerivAt_const _ _

open Classical in
theorem ite_deriv {a b f g : ℝ → ℝ} {a' b' f' g' t : ℝ} (ha : HasDerivAt a a' t)
    (hb : HasDerivAt b b' t) (hf : HasDerivAt f f' t) (hg : HasDerivAt g g' t) (h : a t ≠ b t) :
    HasDerivAt (fun s => if a s < b s then f s else g s) (if a t < b t then f' else g') t := by
  rcases lt_or_gt_of_ne h with c | c
  · rw [if_pos c]
    refine hf.congr_of_eventuallyEq ?_
    filter_upwards [ha.continuousAt.eventually_lt hb.continuousAt c] with s hs
    rw [if_pos hs]
  · rw [if_neg c.not_gt]
    refine hg.congr_of_eventuallyEq ?_
    filter_upwards [hb.continuousAt.eventually_lt ha.continuousAt c] with s hs
    rw [if_neg (not_lt.2 (le_of_lt hs))]

/-- No input sits on a switch. -/
structure Away (i : In) : Prop where
  struct : i.design ≠ i.smax
  geo : i.design ≠ i.geo
  req : i.req ≠ i.wmax
  wmin : i.fmin ≠ (hard i).volMass
  gross : i.gross ≠ i.oew + i.fuel + (hard i).aux

open Classical in
theorem hVol_eq (i : In) : hVol i = if i.design < i.smax then 0 else
    if i.design - i.geo < 0 then 0 else i.design - i.geo := by
  rw [hVol]; split
  · exact max_self 0
  · split
    · exact max_eq_right (by linarith)
    · exact max_eq_left (by linarith)

theorem hVol_deriv {i : In} (h : Away i) (w : Wrt) :
    HasDerivAt (fun t => hVol (i.set w t)) (hdVol i w) (i.get w) := by
  have D := get_deriv i .design w
  have S := get_deriv i .smax w
  have G := get_deriv i .geo w
  have z := hasDerivAt_const (i.get w) (0 : ℝ)
  have inner := ite_deriv (D.sub G) z z (D.sub G) (by
    show (i.set w (i.get w)).design - (i.set w (i.get w)).geo ≠ 0
    rw [set_get]; exact sub_ne_zero.2 h.geo)
  have outer := ite_deriv D S z inner (by
    show (i.set w (i.get w)).design ≠ (i.set w (i.get w)).smax
    rw [set_get]; exact h.struct)
  refine hd_congr outer (fun t => hVol_eq _) ?_
  show hdVol i w = if (i.set w (i.get w)).design < (i.set w (i.get w)).smax then 0 else
    if (i.set w (i.get w)).design - (i.set w (i.get w)).geo < 0 then 0 else _
  rw [set_get]
  cases w <;> simp [hdVol, dl]

theorem hAux_deriv {i : In} (h : i.req ≠ i.wmax) (w : Wrt) :
    HasDerivAt (fun t => hAux (i.set w t)) (hdAux i w) (i.get w) := by
  have R := get_deriv i .req w
  have W := get_deriv i .wmax w
  have z := hasDerivAt_const (i.get w) (0 : ℝ)
  have q := ite_deriv (R.sub W) z z (R.sub W) (by
    show (i.set w (i.get w)).req - (i.set w (i.get w)).wmax ≠ 0
    rw [set_get]; exact sub_ne_zero.2 h)
  refine hd_congr q (fun t => rfl) ?_
  show hdAux i w = if (i.set w (i.get w)).req - (i.set w (i.get w)).wmax < 0 then 0 else _
  rw [set_get]
  cases w <;> simp [hdAux, dl]

/-- The mass in the extra volume follows from the volume. -/
theorem volMass_deriv {v : In → ℝ} {dv : Wrt → ℝ} {i : In} (w : Wrt)
    (hv : HasDerivAt (fun t => v (i.set w t)) (dv w) (i.get w))
    (h0 : ∀ w, w ≠ .design → w ≠ .smax → w ≠ .geo → dv w = 0) :
    HasDerivAt (fun t => v (i.set w t) * (i.set w t).rho) (dVolMass (v i) dv i w) (i.get w) := by
  have q := hv.mul (get_deriv i .rho w)
  refine hd_congr q (fun t => rfl) ?_
  show dVolMass (v i) dv i w = dv w * (i.set w (i.get w)).rho + v (i.set w (i.get w)) * dl .rho w
  rw [set_get]
  cases w <;> simp [dVolMass, dl, h0]

theorem hdVol_zero (i : In) : ∀ w, w ≠ .design → w ≠ .smax → w ≠ .geo → hdVol i w = 0 := by
  intro w h1 h2 h3; cases w <;> simp_all [hdVol]

theorem hWmin_deriv {i : In} (h : Away i) (w : Wrt) :
    HasDerivAt (fun t => hWmin (i.set w t)) (hdWmin i w) (i.get w) := by
  have V := volMass_deriv w (hVol_deriv h w) (hdVol_zero i)
  have F := get_deriv i .fmin w
  have z := hasDerivAt_const (i.get w) (0 : ℝ)
  have q := ite_deriv (F.sub V) z z (F.sub V) (by
    show (i.set w (i.get w)).fmin - hVol (i.set w (i.get w)) * (i.set w (i.get w)).rho ≠ 0
    rw [set_get]; exact sub_ne_zero.2 h.wmin)
  refine hd_congr q (fun t => rfl) ?_
  show hdWmin i w = if (i.set w (i.get w)).fmin
    - hVol (i.set w (i.get w)) * (i.set w (i.get w)).rho < 0 then 0 else _
  rw [set_get]
  cases w <;> simp [hdWmin, dl, dVolMass]

theorem hAvail_deriv {i : In} (h : Away i) (w : Wrt) :
    HasDerivAt (fun t => hAvail (i.set w t)) (hdAvail i w) (i.get w) := by
  have A := hAux_deriv h.req w
  have F := get_deriv i .fuel w
  have G := get_deriv i .gross w
  have O := get_deriv i .oew w
  have E := F.add A
  have hg : i.oew + (i.fuel + hAux i) ≠ i.gross := by
    rw [← add_assoc]; exact fun e => h.gross e.symm
  have q := ite_deriv (O.add E) G E (G.sub O) (by
    show (i.set w (i.get w)).oew + ((i.set w (i.get w)).fuel + hAux (i.set w (i.get w)))
      ≠ (i.set w (i.get w)).gross
    rw [set_get]; exact hg)
  have pw : ∀ t, hAvail (i.set w t) = if (i.set w t).oew + ((i.set w t).fuel + hAux (i.set w t))
      < (i.set w t).gross then (i.set w t).fuel + hAux (i.set w t)
        else (i.set w t).gross - (i.set w t).oew := by
    intro t
    show hAvail (i.set w t) = if (i.set w t).oew + ((i.set w t).fuel + hAux (i.set w t))
      < (i.set w t).gross then (i.set w t).fuel + hAux (i.set w t)
        else (i.set w t).gross - (i.set w t).oew
    generalize i.set w t = j
    have := hard_cap j
    simp only [hard] at this
    have e : hAvail j = min (j.fuel + hAux j) (j.gross - j.oew) := by linarith
    rw [e]; split
    · exact min_eq_left (by linarith)
    · exact min_eq_right (by linarith)
  refine hd_congr q pw ?_
  show hdAvail i w = if (i.set w (i.get w)).oew
    + ((i.set w (i.get w)).fuel + hAux (i.set w (i.get w))) < (i.set w (i.get w)).gross then _
      else _
  rw [set_get]
  rcases lt_or_gt_of_ne hg with c | c
  · have c' : i.oew + i.fuel + hAux i < i.gross := by linarith
    rw [if_pos c]
    cases w <;> simp [hdAvail, dl, c', hdAux]
  · have c' : i.gross < i.oew + i.fuel + hAux i := by linarith
    rw [if_neg c.not_gt]
    cases w <;> simp [hdAvail, dl, c', c'.not_gt]

/-- Without smoothing all fifty-five derivatives are right away from the switches. -/
theorem hard_partials_partial {i : In} (h : Away i) (w : Wrt) :
    HasDerivAt (fun t => (hard (i.set w t)).aux) (hPart i w).aux (i.get w) ∧
    HasDerivAt (fun t => (hard (i.set w t)).vol) (hPart i w).vol (i.get w) ∧
    HasDerivAt (fun t => (hard (i.set w t)).volMass) (hPart i w).volMass (i.get w) ∧
    HasDerivAt (fun t => (hard (i.set w t)).wmin) (hPart i w).wmin (i.get w) ∧
    HasDerivAt (fun t => (hard (i.set w t)).cap) (hPart i w).cap (i.get w) := by
  refine ⟨hAux_deriv h.req w, hVol_deriv h w, volMass_deriv w (hVol_deriv h w) (hdVol_zero i),
    hWmin_deriv h w, ?_⟩
  refine hd_congr ((hAvail_deriv h w).add (get_deriv i .unus w)) (fun t => rfl) ?_
  cases w <;> simp [hPart, dl, hdAvail]

/-! ### Derivatives with smoothing -/

theorem sig_deriv {x mu : ℝ} (hm : mu ≠ 0) (hx : x / mu ≠ -320) :
    HasDerivAt (fun y => sig y mu) (dsig x mu) x := by
  obtain ⟨d, hd, f, hf, h⟩ := sigmoidArr_deriv x 0 mu hm (by simpa using hx)
  have e1 : ∀ y, f y = sig y mu := by
    intro y
    have := hf y
    rw [sigmoidArr, if_neg hm] at this
    simp only [sub_zero] at this
    exact (Except.ok.inj this).symm
  have e2 : d = dsig x mu := by
    rw [dSigmoidArr, if_neg hm] at hd
    simp only [sub_zero] at hd
    exact (Except.ok.inj hd).symm
  exact hd_congr h (fun y => (e1 y).symm) e2.symm

theorem sig_comp {f : ℝ → ℝ} {f' t mu : ℝ} (hm : mu ≠ 0) (hx : f t / mu ≠ -320)
    (hf : HasDerivAt f f' t) : HasDerivAt (fun s => sig (f s) mu) (dsig (f t) mu * f') t :=
  HasDerivAt.comp (h₂ := fun y => sig y mu) t (sig_deriv hm hx) hf

theorem sVol_deriv {i : In} {mu : ℝ} (hm : mu ≠ 0) (h : i.design - i.smax ≠ -320) (w : Wrt) :
    HasDerivAt (fun t => sVol mu (i.set w t)) (sdVol mu i w) (i.get w) := by
  have D := get_deriv i .design w
  have S := get_deriv i .smax w
  have G := get_deriv i .geo w
  have q := (sig_comp (mu := 1) one_ne_zero (by
    show ((i.set w (i.get w)).design - (i.set w (i.get w)).smax) / 1 ≠ -320
    rw [set_get, div_one]; exact h) (D.sub S)).mul (D.sub G)
  have V : HasDerivAt (fun t => sVol0 (i.set w t))
      (dsig (i.design - i.smax) 1 * (dl .design w - dl .smax w) * (i.design - i.geo)
        + sig (i.design - i.smax) 1 * (dl .design w - dl .geo w)) (i.get w) := by
    refine hd_congr q (fun t => rfl) ?_
    show _ = dsig ((i.set w (i.get w)).design - (i.set w (i.get w)).smax) 1 * _
      * ((i.set w (i.get w)).design - (i.set w (i.get w)).geo)
      + sig ((i.set w (i.get w)).design - (i.set w (i.get w)).smax) 1 * _
    rw [set_get]
  have M := HasDerivAt.comp (h₂ := fun y => smoothMax y 0 mu) (i.get w)
    (smoothMax_deriv (sVol0 (i.set w (i.get w))) 0 mu hm) V
  refine hd_congr M (fun t => rfl) ?_
  rw [set_get]
  cases w <;> simp [sdVol, dl]
  all_goals ring

theorem sdVol_zero (mu : ℝ) (i : In) :
    ∀ w, w ≠ .design → w ≠ .smax → w ≠ .geo → sdVol mu i w = 0 := by
  intro w h1 h2 h3; cases w <;> simp_all [sdVol]

/-- With smoothing the derivatives of the extra volume and of the mass in it are right. -/
theorem smooth_volume_partials_partial {i : In} {mu : ℝ} (hm : mu ≠ 0)
    (h : i.design - i.smax ≠ -320) (w : Wrt) :
    HasDerivAt (fun t => (smooth mu (i.set w t)).vol) (sPart mu i w).vol (i.get w) ∧
    HasDerivAt (fun t => (smooth mu (i.set w t)).volMass) (sPart mu i w).volMass (i.get w) :=
  ⟨sVol_deriv hm h w, volMass_deriv (v := sVol mu) w (sVol_deriv hm h w) (sdVol_zero mu i)⟩

theorem dsig_pos {x mu : ℝ} (hm : 0 < mu) (h : x / mu > -320) : 0 < dsig x mu := by
  rw [dsig, if_pos h]; positivity

theorem sAux_deriv {i : In} (h : (i.req - i.wmax) / (1 / 50) ≠ -320) :
    HasDerivAt (fun t => sAux (i.set .req t))
      (sig (i.req - i.wmax) (1 / 50) + (i.req - i.wmax) * dsig (i.req - i.wmax) (1 / 50)) i.req := by
  have R : HasDerivAt (fun t : ℝ => t - i.wmax) 1 i.req := (hasDerivAt_id _).sub_const _
  have q := R.mul (sig_comp (mu := 1 / 50) (by norm_num) h R)
  refine hd_congr q (fun t => rfl) ?_
  ring

/-- The derivative of the smoothed auxiliary capacity has a factor of a fiftieth too many: it is right
only where the required fuel is exactly what the wing holds. -/
theorem smooth_aux_iff {i : In} (mu : ℝ) (h : (i.req - i.wmax) / (1 / 50) > -320) :
    HasDerivAt (fun t => (smooth mu (i.set .req t)).aux) (sPart mu i .req).aux i.req ↔
      i.req = i.wmax := by
  have A := sAux_deriv (i := i) (ne_of_gt h)
  have p := dsig_pos (x := i.req - i.wmax) (mu := 1 / 50) (by norm_num) h
  have key : (sPart mu i .req).aux = sig (i.req - i.wmax) (1 / 50)
      + (i.req - i.wmax) * dsig (i.req - i.wmax) (1 / 50) * 1 / 50 := rfl
  constructor
  · intro e
    have := e.unique A
    rw [key] at this
    have z : (i.req - i.wmax) * dsig (i.req - i.wmax) (1 / 50) = 0 := by linarith
    rcases mul_eq_zero.1 z with c | c
    · linarith
    · exact absurd c p.ne'
  · intro e
    refine hd_congr A (fun t => rfl) ?_
    rw [key, e]; ring

/-- The derivative of the smoothed wing minimum is evaluated at the smoothed instead of the raw value.
Whenever the raw value is `log 3` the coded entry by the minimum fuel is too small. -/
theorem smooth_wmin_violated {i : In} {mu : ℝ} (h : i.fmin - sVol mu i * i.rho = log 3) :
    ∃ d, HasDerivAt (fun t => (smooth mu (i.set .fmin t)).wmin) d i.fmin ∧
      (sPart mu i .fmin).wmin < d := by
  have l3 : 0 < log 3 := Real.log_pos (by norm_num)
  have e3 : exp (-log 3) = 1 / 3 := by
    rw [Real.exp_neg, Real.exp_log (by norm_num)]; norm_num
  have s3 : sig (log 3) 1 = 3 / 4 := by
    rw [sig, if_pos (by rw [div_one]; linarith), div_one, e3]; norm_num
  have d3 : dsig (log 3) 1 = 3 / 16 := by
    rw [dsig, if_pos (by rw [div_one]; linarith), div_one, div_one, e3]; norm_num
  have F : HasDerivAt (fun t : ℝ => t - sVol mu i * i.rho) 1 i.fmin :=
    (hasDerivAt_id _).sub_const _
  have q := F.mul (sig_comp (mu := 1) one_ne_zero (by rw [h, div_one]; linarith) F)
  refine ⟨_, q, ?_⟩
  show (1 : ℝ) * sig (sWmin mu i) 1 + sWmin mu i * dsig (sWmin mu i) 1 * 1
    < 1 * sig (i.fmin - sVol mu i * i.rho) 1
      + (i.fmin - sVol mu i * i.rho) * (dsig (i.fmin - sVol mu i * i.rho) 1 * 1)
  have hw : sWmin mu i = 3 / 4 * log 3 := by rw [sWmin, h, s3]; ring
  rw [hw, h, s3, d3]
  set y := 3 / 4 * log 3 with hy
  have y0 : 0 < y := by positivity
  have yl : y < log 3 := by linarith
  have ey : 1 / 3 < exp (-y) := by
    rw [← e3]; exact Real.exp_lt_exp.2 (by linarith)
  have s : sig y 1 < 3 / 4 := by
    rw [sig, if_pos (by rw [div_one]; linarith), div_one, div_lt_iff₀ (by positivity)]
    linarith
  have d : dsig y 1 ≤ 1 / 4 := by
    rw [dsig, if_pos (by rw [div_one]; linarith), div_one, div_one,
      div_le_iff₀ (by positivity)]
    nlinarith [sq_nonneg (1 - exp (-y))]
  have : y * dsig y 1 ≤ y * (1 / 4) := mul_le_mul_of_nonneg_left d y0.le
  rw [hy] at this ⊢
  linarith

/-- The derivative of the smoothed capacity by the design fuel, where neither sigmoid is cut off. -/
theorem sAvail_deriv {i : In} (h1 : (i.gross - estGtow i) / (1 / 110) > -320)
    (h2 : (estGtow i - i.gross) / (1 / 110) > -320) :
    HasDerivAt (fun t => sAvail (i.set .fuel t))
      (sig (i.gross - estGtow i) (1 / 110)
        - (estGtow i - i.gross) * dsig (i.gross - estGtow i) (1 / 110)) i.fuel := by
  have E : HasDerivAt (fun t : ℝ => t + sAux i) 1 i.fuel := (hasDerivAt_id _).add_const _
  have eg : i.oew + (i.fuel + sAux i) = estGtow i := by rw [estGtow]; ring
  have a : HasDerivAt (fun t : ℝ => sig (i.gross - (i.oew + (t + sAux i))) (1 / 110))
      (dsig (i.gross - estGtow i) (1 / 110) * -1) i.fuel := by
    have := sig_comp (mu := 1 / 110) (f := fun t => i.gross - (i.oew + (t + sAux i))) (by norm_num)
      (by rw [eg]; exact ne_of_gt h1) ((E.const_add i.oew).const_sub i.gross)
    rw [eg] at this
    exact this
  have b : HasDerivAt (fun t : ℝ => sig (i.oew + (t + sAux i) - i.gross) (1 / 110))
      (dsig (estGtow i - i.gross) (1 / 110) * 1) i.fuel := by
    have := sig_comp (mu := 1 / 110) (f := fun t => i.oew + (t + sAux i) - i.gross) (by norm_num)
      (by rw [eg]; exact ne_of_gt h2) ((E.const_add i.oew).sub_const i.gross)
    rw [eg] at this
    exact this
  have sym : dsig (estGtow i - i.gross) (1 / 110) = dsig (i.gross - estGtow i) (1 / 110) := by
    rw [dsig, dsig, if_pos h1, if_pos h2]
    have k : -(estGtow i - i.gross) / (1 / 110) = -(-(i.gross - estGtow i) / (1 / 110)) := by ring
    rw [k, Real.exp_neg]
    have := Real.exp_pos (-(i.gross - estGtow i) / (1 / 110))
    field_simp
    ring
  refine hd_congr ((E.mul a).add (b.const_mul (i.gross - i.oew))) (fun t => rfl) ?_
  rw [eg, sym, estGtow]
  ring

/-- The derivative of the smoothed capacity by the design fuel has a factor of 1/110 too many: near the
gross mass it is right only exactly at the gross mass. -/
theorem smooth_cap_iff {i : In} (mu : ℝ) (h1 : (i.gross - estGtow i) / (1 / 110) > -320)
    (h2 : (estGtow i - i.gross) / (1 / 110) > -320) :
    HasDerivAt (fun t => (smooth mu (i.set .fuel t)).cap) (sPart mu i .fuel).cap i.fuel ↔
      i.gross = estGtow i := by
  have A : HasDerivAt (fun t => (smooth mu (i.set .fuel t)).cap) _ i.fuel :=
    (sAvail_deriv h1 h2).add_const i.unus
  have p := dsig_pos (x := i.gross - estGtow i) (mu := 1 / 110) (by norm_num) h1
  have sym : dsig (estGtow i - i.gross) (1 / 110) = dsig (i.gross - estGtow i) (1 / 110) := by
    rw [dsig, dsig, if_pos h1, if_pos h2]
    have k : -(estGtow i - i.gross) / (1 / 110) = -(-(i.gross - estGtow i) / (1 / 110)) := by ring
    rw [k, Real.exp_neg]
    have := Real.exp_pos (-(i.gross - estGtow i) / (1 / 110))
    field_simp
    ring
  have key : (sPart mu i .fuel).cap = sig (i.gross - estGtow i) (1 / 110)
      - (estGtow i - i.gross) * dsig (i.gross - estGtow i) (1 / 110) / 110 := by
    show sdAvail mu i .fuel = _
    simp only [sdAvail, sdEst, sdNew, dInt1, dInt2, sym]
    rw [estGtow]
    ring
  constructor
  · intro e
    have := e.unique A
    rw [key] at this
    have z : (estGtow i - i.gross) * dsig (i.gross - estGtow i) (1 / 110) = 0 := by linarith
    rcases mul_eq_zero.1 z with c | c
    · linarith
    · exact absurd c p.ne'
  · intro e
    refine hd_congr A (fun t => rfl) ?_
    rw [key, e]; ring

/-- The entry by the wing capacity takes the derivative by the structural volume for that by the wing
fuel mass: it changes with the fuel density, on which the capacity does not depend at all, so of any two
densities at most one can have the right entry. -/
theorem smooth_cap_wmax_violated {i : In} {mu r : ℝ}
    (hv : sdVol mu i .smax ≠ 0) (hr : r ≠ i.rho) (hu : estGtow i ≠ i.gross)
    (h1 : (i.gross - estGtow i) / (1 / 110) > -320)
    (h2 : (estGtow i - i.gross) / (1 / 110) > -320) :
    ¬ (HasDerivAt (fun t => (smooth mu (In.set { i with rho := r } .wmax t)).cap)
          (sPart mu { i with rho := r } .wmax).cap i.wmax ∧
       HasDerivAt (fun t => (smooth mu (i.set .wmax t)).cap) (sPart mu i .wmax).cap i.wmax) := by
  suffices ne : (sPart mu { i with rho := r } .wmax).cap ≠ (sPart mu i .wmax).cap from
    fun h => ne (h.1.unique h.2)
  have p := dsig_pos (x := i.gross - estGtow i) (mu := 1 / 110) (by norm_num) h1
  have sym : dsig (estGtow i - i.gross) (1 / 110) = dsig (i.gross - estGtow i) (1 / 110) := by
    rw [dsig, dsig, if_pos h1, if_pos h2]
    have k : -(estGtow i - i.gross) / (1 / 110) = -(-(i.gross - estGtow i) / (1 / 110)) := by ring
    rw [k, Real.exp_neg]
    have := Real.exp_pos (-(i.gross - estGtow i) / (1 / 110))
    field_simp
    ring
  have key : ∀ ρ : ℝ, (sPart mu { i with rho := ρ } .wmax).cap
      = sdAux i .wmax * sig (i.gross - estGtow i) (1 / 110)
        - (estGtow i - i.gross) * dsig (i.gross - estGtow i) (1 / 110) * (sdVol mu i .smax * ρ)
          / 100 := by
    intro ρ
    show (sdAux i .wmax * sig (i.gross - estGtow i) (1 / 110) + (i.fuel + sAux i) *
      (dsig (i.gross - estGtow i) (1 / 110) * -(sdVol mu i .smax * ρ) / 100)
      + 0 * sig (estGtow i - i.gross) (1 / 110) + (i.gross - i.oew) *
      (dsig (estGtow i - i.gross) (1 / 110) * (sdVol mu i .smax * ρ) / 100)) = _
    rw [sym]
    simp only [estGtow]
    ring
  intro e
  have e' := (key r).symm.trans (e.trans (key i.rho))
  have z : (estGtow i - i.gross) * dsig (i.gross - estGtow i) (1 / 110) * sdVol mu i .smax
      * (r - i.rho) = 0 := by linarith
  have : (estGtow i - i.gross) * dsig (i.gross - estGtow i) (1 / 110) * sdVol mu i .smax
      * (r - i.rho) ≠ 0 :=
    mul_ne_zero (mul_ne_zero (mul_ne_zero (sub_ne_zero.2 hu) p.ne') hv) (sub_ne_zero.2 hr)
  exact this z

/-! ### Cases which meet the hypotheses -/

example : Away ⟨5, 4, 100, 10, 8, 3, 40, 200, 10, 100, 1⟩ := by
  refine ⟨?_, ?_, ?_, ?_, ?_⟩ <;> norm_num [hard, hVol, hAux]

example : let i : In := ⟨5, 4, 100, 10, 8, 3, 50, 111, 9, 100, 1⟩
    (i.req - i.wmax) / (1 / 50) > -320 ∧ i.design - i.smax ≠ -320 := by norm_num

example (mu : ℝ) : ∃ i : In, i.fmin - sVol mu i * i.rho = log 3 :=
  ⟨⟨5, 4, log 3, 10, 8, 3, 0, 111, 9, 100, 1⟩, by simp⟩

example : let i : In := ⟨5, 4, 100, 8, 8, 3, 50, 110, 9, 100, 1⟩
    (i.gross - estGtow i) / (1 / 110) > -320 ∧ (estGtow i - i.gross) / (1 / 110) > -320 ∧
    estGtow i ≠ i.gross ∧ sdVol 1 i .smax ≠ 0 := by
  refine ⟨?_, ?_, ?_, ?_⟩
  · norm_num [estGtow, sAux]
  · norm_num [estGtow, sAux]
  · norm_num [estGtow, sAux]
  · have a : 0 < dSmoothMax (sVol0 ⟨5, 4, 100, 8, 8, 3, 50, 110, 9, 100, 1⟩) 0 1 := by
      unfold dSmoothMax; positivity
    have b := dsig_pos (x := (5 : ℝ) - 4) (mu := 1) one_pos (by norm_num)
    refine mul_ne_zero a.ne' (mul_ne_zero b.ne' ?_)
    norm_num

/-- The derivative of the smoothed capacity by the gross mass, where neither sigmoid is cut off. -/
theorem sAvail_deriv_gross {i : In} (h1 : (i.gross - estGtow i) / (1 / 110) > -320)
    (h2 : (estGtow i - i.gross) / (1 / 110) > -320) :
    HasDerivAt (fun t => sAvail (i.set .gross t))
      (sig (estGtow i - i.gross) (1 / 110)
        + (estGtow i - i.gross) * dsig (i.gross - estGtow i) (1 / 110)) i.gross := by
  have eg : i.oew + (i.fuel + sAux i) = estGtow i := by rw [estGtow]; ring
  have a : HasDerivAt (fun t : ℝ => sig (t - (i.oew + (i.fuel + sAux i))) (1 / 110))
      (dsig (i.gross - estGtow i) (1 / 110) * 1) i.gross := by
    have := sig_comp (mu := 1 / 110) (f := fun t => t - (i.oew + (i.fuel + sAux i))) (by norm_num)
      (by rw [eg]; exact ne_of_gt h1) ((hasDerivAt_id i.gross).sub_const _)
    rw [eg] at this ⊢
    exact this
  have b : HasDerivAt (fun t : ℝ => sig (i.oew + (i.fuel + sAux i) - t) (1 / 110))
      (dsig (estGtow i - i.gross) (1 / 110) * -1) i.gross := by
    have := sig_comp (mu := 1 / 110) (f := fun t => i.oew + (i.fuel + sAux i) - t) (by norm_num)
      (by rw [eg]; exact ne_of_gt h2) ((hasDerivAt_id i.gross).const_sub _)
    rw [eg] at this ⊢
    exact this
  have sym : dsig (estGtow i - i.gross) (1 / 110) = dsig (i.gross - estGtow i) (1 / 110) := by
    rw [dsig, dsig, if_pos h1, if_pos h2]
    have k : -(estGtow i - i.gross) / (1 / 110) = -(-(i.gross - estGtow i) / (1 / 110)) := by ring
    rw [k, Real.exp_neg]
    have := Real.exp_pos (-(i.gross - estGtow i) / (1 / 110))
    field_simp
    ring
  have hl : HasDerivAt (fun t : ℝ => t - i.oew) 1 i.gross := (hasDerivAt_id _).sub_const _
  refine hd_congr ((a.const_mul (i.fuel + sAux i)).add (hl.mul b)) (fun t => rfl) ?_
  rw [eg, sym, estGtow]
  ring

/-- The entry by the gross mass has the same factor of 1/110 too many: right only exactly at the estimate. -/
theorem smooth_cap_gross_iff {i : In} (mu : ℝ) (h1 : (i.gross - estGtow i) / (1 / 110) > -320)
    (h2 : (estGtow i - i.gross) / (1 / 110) > -320) :
    HasDerivAt (fun t => (smooth mu (i.set .gross t)).cap) (sPart mu i .gross).cap i.gross ↔
      i.gross = estGtow i := by
  have A : HasDerivAt (fun t => (smooth mu (i.set .gross t)).cap) _ i.gross :=
    (sAvail_deriv_gross h1 h2).add_const i.unus
  have p := dsig_pos (x := i.gross - estGtow i) (mu := 1 / 110) (by norm_num) h1
  have sym : dsig (estGtow i - i.gross) (1 / 110) = dsig (i.gross - estGtow i) (1 / 110) := by
    rw [dsig, dsig, if_pos h1, if_pos h2]
    have k : -(estGtow i - i.gross) / (1 / 110) = -(-(i.gross - estGtow i) / (1 / 110)) := by ring
    rw [k, Real.exp_neg]
    have := Real.exp_pos (-(i.gross - estGtow i) / (1 / 110))
    field_simp
    ring
  have key : (sPart mu i .gross).cap = sig (estGtow i - i.gross) (1 / 110)
      + (estGtow i - i.gross) * dsig (i.gross - estGtow i) (1 / 110) / 110 := by
    show sdAvail mu i .gross = _
    simp only [sdAvail, sdEst, sdNew, dInt1, dInt2, sym]
    rw [estGtow]
    ring
  constructor
  · intro e
    have := e.unique A
    rw [key] at this
    have z : (estGtow i - i.gross) * dsig (i.gross - estGtow i) (1 / 110) = 0 := by linarith
    rcases mul_eq_zero.1 z with c | c
    · linarith
    · exact absurd c p.ne'
  · intro e
    refine hd_congr A (fun t => rfl) ?_
    rw [key, e]; ring

end Verif.BodyTank
