import Verif.Model.BwbVolume
import Verif.Props.SmoothMath
import Verif.Lemmas.CompDeriv
import Mathlib.Tactic.Linarith
import Mathlib.Tactic.FieldSimp
import Mathlib.Tactic.Ring
import Mathlib.Tactic.Positivity
import Mathlib.Tactic.NormNum

/-!
# C147: The fuel volume of the wing of a blended wing body
-/

set_option linter.unusedSimpArgs false

namespace Verif.BwbVolume
open Real

/-- The usable span, aviary/subsystems/geometry/gasp_based/wing.py:585. -/
noncomputable def usable (p : Inp) (w : ℝ) : ℝ := p.span - p.width - 2 * w

theorem sw_eq (p : Inp) (w : ℝ) : sw p w = usable p w * ((cfuel p w + ctip p) / 2) := by
  unfold sw usable; ring

theorem ar_eq (p : Inp) (w : ℝ) (hx : 0 < usable p w) (hq : 0 < cfuel p w + ctip p) :
    ar p w = usable p w / ((cfuel p w + ctip p) / 2) := by
  unfold ar
  rw [sw_eq]
  have : p.span - p.width - 2 * w = usable p w := rfl
  rw [this]
  field_simp

theorem sqrt_sw (p : Inp) (w : ℝ) (hx : 0 < usable p w) (hq : 0 < cfuel p w + ctip p) :
    √(sw p w) = √(ar p w) * ((cfuel p w + ctip p) / 2) := by
  have : sw p w = ar p w * ((cfuel p w + ctip p) / 2) ^ 2 := by
    rw [ar_eq p w hx hq, sw_eq]; field_simp
  rw [this, Real.sqrt_mul' _ (sq_nonneg _), Real.sqrt_sq (by linarith)]

theorem sw_pos (p : Inp) (w : ℝ) (hx : 0 < usable p w) (hq : 0 < cfuel p w + ctip p) : 0 < sw p w := by
  rw [sw_eq]; positivity

theorem pow_half (x : ℝ) : x ^ (0.5 : ℝ) = √x := by rw [Real.sqrt_eq_rpow]; norm_num

theorem pow_three_half (x : ℝ) (h : 0 < x) : x ^ (1.5 : ℝ) = x * √x := by
  rw [show (1.5 : ℝ) = 1 + 1 / 2 by norm_num, Real.rpow_add h, Real.rpow_one, Real.sqrt_eq_rpow]

/-- **The volume in closed form:** thickness times usable span times the chords, without any root. -/
theorem vol_closed (p : Inp) (w : ℝ) (hx : 0 < usable p w) (hc : 0 < cfuel p w) (hq : 0 < cfuel p w + ctip p) :
    vol p w = p.frac * 0.888889 * tcm p w * usable p w * cfuel p w * (cfuel p w + 2 * ctip p) / 4 := by
  unfold vol numer denom slm
  rw [pow_half, pow_three_half _ (sw_pos p w hx hq), sqrt_sw p w hx hq, sw_eq]
  have ha : 0 < √(ar p w) := Real.sqrt_pos.2 (by rw [ar_eq p w hx hq]; positivity)
  generalize √(ar p w) = r at *
  have h1 : ctip p / cfuel p w + 1 ≠ 0 := by
    rw [div_add_one hc.ne']; exact (div_pos (by linarith) hc).ne'
  have e1 : ctip p / cfuel p w + 1 = (cfuel p w + ctip p) / cfuel p w := by field_simp; ring
  rw [e1]
  generalize cfuel p w = C at *
  generalize ctip p = T at *
  generalize tcm p w = M at *
  generalize usable p w = X at *
  have hq' := hq.ne'
  field_simp
  ring

/-- The value of the stored entry for any derivatives of the parts that belong together. -/
theorem core (k f M C q r f' M' C' T' X' : ℝ) (hr : 0 < r) (hq : 0 < q) (hC : 0 < C) :
    let X := r ^ 2 * q
    let T := 2 * q - C
    let S := X * q
    let s := T / C
    let S' := X' * q + X * ((C' + T') / 2)
    let s' := (T' * C - T * C') / C ^ 2
    let A' := 2 * X * X' / S - X ^ 2 * S' / S ^ 2
    ((f' * k * M * (S * (r * q)) * (2 * s + 1) + f * k * M' * (S * (r * q)) * (2 * s + 1)
        + f * k * M * 1.5 * S' * (r * q) * (2 * s + 1) + f * k * M * (S * (r * q)) * (2 * s')) * (r * (s + 1) ^ 2)
      - f * k * M * (S * (r * q)) * (2 * s + 1) * (0.5 * A' / r * (s + 1) ^ 2 + 2 * r * s' * (s + 1))) / (r * (s + 1) ^ 2) ^ 2 =
    k / 4 * (f' * M * X * C * (C + 2 * T) + f * M' * X * C * (C + 2 * T) + f * M * X' * C * (C + 2 * T)
      + f * M * X * C' * (C + 2 * T) + f * M * X * C * (C' + 2 * T')) := by
  intro X T S s S' s' A'
  have e : s + 1 = 2 * q / C := by simp only [s, T]; field_simp; ring
  have e2 : 2 * s + 1 = (4 * q - C) / C := by simp only [s, T]; field_simp; ring
  rw [e, e2]
  simp only [X, T, S, S', s', A']
  field_simp
  ring

/-- Derivatives of factor, usable span and chord at the tip by an input.  aviary/subsystems/geometry/gasp_based/wing.py:569, 585, 592. -/
noncomputable def dParts (p : Inp) (dw : ℝ) : Var → ℝ × ℝ × ℝ
  | .frac => (1, 0, 0)
  | .gear => (0, -2 * dw, 0)
  | .taper => (0, 0, p.chord)
  | .chord => (0, 0, p.taper)
  | .tcr => (0, 0, 0)
  | .tct => (0, 0, 0)
  | .width => (0, -1, 0)
  | .span => (0, 1, 0)

/-- **The stored entries are the derivative of the closed form**, except the one by the location of the gear with smoothing. -/
theorem jac_closed (p : Inp) (w dw : ℝ) (v : Var) (hv : v = .gear → dw = 0) (hx : 0 < usable p w) (hc : 0 < cfuel p w)
    (hq : 0 < cfuel p w + ctip p) :
    jac p w dw v = 0.888889 / 4 *
      ((dParts p dw v).1 * tcm p w * usable p w * cfuel p w * (cfuel p w + 2 * ctip p)
        + p.frac * dTCM p w dw v * usable p w * cfuel p w * (cfuel p w + 2 * ctip p)
        + p.frac * tcm p w * (dParts p dw v).2.1 * cfuel p w * (cfuel p w + 2 * ctip p)
        + p.frac * tcm p w * usable p w * dCFUEL p w dw v * (cfuel p w + 2 * ctip p)
        + p.frac * tcm p w * usable p w * cfuel p w * (dCFUEL p w dw v + 2 * (dParts p dw v).2.2)) := by
  have ha : 0 < √(ar p w) := Real.sqrt_pos.2 (by rw [ar_eq p w hx hq]; positivity)
  have hq2 : 0 < (cfuel p w + ctip p) / 2 := by linarith
  have key := core 0.888889 p.frac (tcm p w) (cfuel p w) ((cfuel p w + ctip p) / 2) (√(ar p w)) (dParts p dw v).1 (dTCM p w dw v)
    (dCFUEL p w dw v) (dParts p dw v).2.2 (dParts p dw v).2.1 ha hq2 hc
  simp only at key
  have hX : √(ar p w) ^ 2 * ((cfuel p w + ctip p) / 2) = usable p w := by
    rw [Real.sq_sqrt (by rw [ar_eq p w hx hq]; positivity), ar_eq p w hx hq]; field_simp
  have hT : 2 * ((cfuel p w + ctip p) / 2) - cfuel p w = ctip p := by ring
  rw [hX, hT, ← sw_eq] at key
  rw [← key]
  have hs1 : sw p w ^ (1.5 : ℝ) = sw p w * (√(ar p w) * ((cfuel p w + ctip p) / 2)) := by
    rw [pow_three_half _ (sw_pos p w hx hq), sqrt_sw p w hx hq]
  have hs2 : sw p w ^ (0.5 : ℝ) = √(ar p w) * ((cfuel p w + ctip p) / 2) := by rw [pow_half, sqrt_sw p w hx hq]
  have hs3 : ar p w ^ (0.5 : ℝ) = √(ar p w) := pow_half _
  have hsl : ctip p / cfuel p w = slm p w := rfl
  unfold jac
  rw [hsl]
  have hd : denom p w = √(ar p w) * (slm p w + 1) ^ 2 := by unfold denom; rw [hs3]
  have hn : numer p w = p.frac * 0.888889 * tcm p w * (sw p w * (√(ar p w) * ((cfuel p w + ctip p) / 2))) * (2 * slm p w + 1) := by
    unfold numer; rw [hs1]
  rw [hd, hn]
  have hcl : cfuel p w ≠ 0 := hc.ne'
  have hswp : sw p w ≠ 0 := (sw_pos p w hx hq).ne'
  have hus : p.span - p.width - 2 * w = usable p w := rfl
  have hhalf : 0.5 * p.span - (0.5 * p.width + w) = usable p w / 2 := by unfold usable; ring
  have htc : p.taper * p.chord = ctip p := rfl
  congr 1
  cases v with
  | frac =>
    simp only [dNumer, dDenom, dTCM, dTCF, dCFUEL, dParts, hs1]
    ring
  | gear =>
    have hdw := hv rfl
    subst hdw
    simp only [dNumer, dDenom, dTCM, dTCF, dCFUEL, dParts, dSW, dSLM, dAR, hs1, hs2, hs3, hus, htc]
    ring
  | taper =>
    simp only [dNumer, dDenom, dTCM, dTCF, dParts, dSW, dSLM, dAR, hs1, hs2, hs3, hus, hhalf, htc]
    have : p.chord / cfuel p w = p.chord * cfuel p w / cfuel p w ^ 2 := by field_simp
    rw [this]
    ring
  | chord =>
    simp only [dNumer, dDenom, dTCM, dTCF, dParts, dSW, dSLM, dAR, hs1, hs2, hs3, hus, hhalf, htc]
    have : p.taper / cfuel p w = p.taper * cfuel p w / cfuel p w ^ 2 := by field_simp
    rw [this]
    ring
  | tcr =>
    simp only [dNumer, dDenom, dTCM, dTCF, dCFUEL, dParts, hs1]
    ring
  | tct =>
    simp only [dNumer, dDenom, dTCM, dTCF, dCFUEL, dParts, hs1]
    ring
  | width =>
    have hneg : -p.taper * p.chord = -ctip p := by rw [← htc]; ring
    simp only [dNumer, dDenom, dTCM, dTCF, dParts, dSW, dSLM, dAR, hs1, hs2, hs3, hus, hhalf, hneg, htc]
    ring
  | span =>
    have hneg : -p.taper * p.chord = -ctip p := by rw [← htc]; ring
    simp only [dNumer, dDenom, dTCM, dTCF, dParts, dSW, dSLM, dAR, hs1, hs2, hs3, hus, hhalf, hneg, htc]
    ring

theorem deriv_as {f g : ℝ → ℝ} {a b x : ℝ} (h : HasDerivAt g b x) (hfg : ∀ y, f y = g y) (hab : a = b) : HasDerivAt f a x := by
  rw [hab, show f = g from funext hfg]; exact h

theorem parts_deriv (p : Inp) (w : ℝ) (v : Var) (hv : v ≠ .gear) (hs : p.span ≠ 0) :
    HasDerivAt (fun x => (p.put x v).frac) (dParts p 0 v).1 (p.get v) ∧
    HasDerivAt (fun x => tcm (p.put x v) w) (dTCM p w 0 v) (p.get v) ∧
    HasDerivAt (fun x => usable (p.put x v) w) (dParts p 0 v).2.1 (p.get v) ∧
    HasDerivAt (fun x => cfuel (p.put x v) w) (dCFUEL p w 0 v) (p.get v) ∧
    HasDerivAt (fun x => ctip (p.put x v)) (dParts p 0 v).2.2 (p.get v) := by
  have cst : ∀ c x : ℝ, HasDerivAt (fun _ : ℝ => c) 0 x := fun c x => hasDerivAt_const x c
  have aff : ∀ (a b c x : ℝ), HasDerivAt (fun y : ℝ => a + b * y) b x := fun a b c x => by
    simpa using ((hasDerivAt_id x).const_mul b).const_add a
  have inv : ∀ (a b x : ℝ), x ≠ 0 → HasDerivAt (fun y : ℝ => a + b / y) (-b / x ^ 2) x := fun a b x hx => by
    refine deriv_as (((hasDerivAt_inv hx).const_mul b).const_add a) (fun y => ?_) ?_
    · rw [div_eq_mul_inv]
    · rw [div_eq_mul_inv]; ring
  cases v with
  | gear => exact absurd rfl hv
  | frac =>
    exact ⟨hasDerivAt_id _, deriv_as (cst (tcm p w) _) (fun _ => rfl) (by simp [dTCM, dTCF]), deriv_as (cst (usable p w) _) (fun _ => rfl) rfl,
      deriv_as (cst (cfuel p w) _) (fun _ => rfl) rfl, deriv_as (cst (ctip p) _) (fun _ => rfl) rfl⟩
  | taper =>
    refine ⟨deriv_as (cst p.frac _) (fun _ => rfl) rfl, ?_, deriv_as (cst (usable p w) _) (fun _ => rfl) rfl, ?_, ?_⟩
    · exact deriv_as (cst (tcm p w) _) (fun _ => rfl) (by simp [dTCM, dTCF])
    · exact deriv_as (aff (p.chord - 2 * (0.5 * p.width + w) * p.chord / p.span) (2 * (0.5 * p.width + w) * p.chord / p.span) 0 p.taper) (fun y => by simp only [cfuel, ctip, Inp.put]; ring) (by simp only [dTCM, dTCF, dCFUEL, dParts])
    · exact deriv_as (aff 0 p.chord 0 p.taper) (fun y => by simp only [ctip, Inp.put]; ring) (by simp only [dTCM, dTCF, dCFUEL, dParts])
  | chord =>
    refine ⟨deriv_as (cst p.frac _) (fun _ => rfl) rfl, ?_, deriv_as (cst (usable p w) _) (fun _ => rfl) rfl, ?_, ?_⟩
    · exact deriv_as (cst (tcm p w) _) (fun _ => rfl) (by simp [dTCM, dTCF])
    · exact deriv_as (aff 0 (1 + 2 * (0.5 * p.width + w) * (p.taper - 1) / p.span) 0 p.chord) (fun y => by simp only [cfuel, ctip, Inp.put]; ring) (by simp only [dTCM, dTCF, dCFUEL, dParts])
    · exact deriv_as (aff 0 p.taper 0 p.chord) (fun y => by simp only [ctip, Inp.put]; ring) (by simp only [dTCM, dTCF, dCFUEL, dParts])
  | tcr =>
    refine ⟨deriv_as (cst p.frac _) (fun _ => rfl) rfl, ?_, deriv_as (cst (usable p w) _) (fun _ => rfl) rfl, deriv_as (cst (cfuel p w) _) (fun _ => rfl) rfl,
      deriv_as (cst (ctip p) _) (fun _ => rfl) rfl⟩
    exact deriv_as (aff (0.5 * (2 * (0.5 * p.width + w) * p.tct / p.span + p.tct)) (0.5 * (1 - 2 * (0.5 * p.width + w) / p.span)) 0 p.tcr) (fun y => by simp only [tcm, tcf, Inp.put]; ring) (by simp only [dTCM, dTCF, dCFUEL, dParts])
  | tct =>
    refine ⟨deriv_as (cst p.frac _) (fun _ => rfl) rfl, ?_, deriv_as (cst (usable p w) _) (fun _ => rfl) rfl, deriv_as (cst (cfuel p w) _) (fun _ => rfl) rfl,
      deriv_as (cst (ctip p) _) (fun _ => rfl) rfl⟩
    exact deriv_as (aff (0.5 * (p.tcr - 2 * (0.5 * p.width + w) * p.tcr / p.span)) (0.5 * (2 * (0.5 * p.width + w) / p.span) + 0.5) 0 p.tct) (fun y => by simp only [tcm, tcf, Inp.put]; ring) (by simp only [dTCM, dTCF, dCFUEL, dParts])
  | width =>
    refine ⟨deriv_as (cst p.frac _) (fun _ => rfl) rfl, ?_, ?_, ?_, deriv_as (cst (ctip p) _) (fun _ => rfl) rfl⟩
    · exact deriv_as (aff (0.5 * (p.tcr - 2 * w * (p.tcr - p.tct) / p.span + p.tct)) (0.5 * (-(p.tcr - p.tct) / p.span)) 0 p.width) (fun y => by simp only [tcm, tcf, Inp.put]; ring) (by simp only [dTCM, dTCF, dCFUEL, dParts])
    · exact deriv_as (aff (p.span - 2 * w) (-1) 0 p.width) (fun y => by simp only [usable, Inp.put]; ring) (by simp only [dTCM, dTCF, dCFUEL, dParts])
    · exact deriv_as (aff (p.chord + 2 * w * (p.taper * p.chord - p.chord) / p.span) ((p.taper - 1) * p.chord / p.span) 0 p.width) (fun y => by simp only [cfuel, ctip, Inp.put]; ring) (by simp only [dTCM, dTCF, dCFUEL, dParts])
  | span =>
    refine ⟨deriv_as (cst p.frac _) (fun _ => rfl) rfl, ?_, ?_, ?_, deriv_as (cst (ctip p) _) (fun _ => rfl) rfl⟩
    · exact deriv_as (inv (0.5 * (p.tcr + p.tct)) (-(0.5 * (2 * (0.5 * p.width + w) * (p.tcr - p.tct)))) p.span hs) (fun y => by simp only [tcm, tcf, Inp.put]; ring)
        (by simp only [dTCM, dTCF]; ring)
    · exact deriv_as (aff (-p.width - 2 * w) 1 0 p.span) (fun y => by simp only [usable, Inp.put]; ring) (by simp only [dTCM, dTCF, dCFUEL, dParts])
    · exact deriv_as (inv p.chord (2 * (0.5 * p.width + w) * (p.taper * p.chord - p.chord)) p.span hs) (fun y => by simp only [cfuel, ctip, Inp.put]) (by simp only [dCFUEL]; ring)

theorem dTCM_of (p : Inp) (w dw : ℝ) (v : Var) (hv : v ≠ .gear) : dTCM p w dw v = dTCM p w 0 v := by
  cases v <;> first | rfl | exact absurd rfl hv

theorem dCFUEL_of (p : Inp) (w dw : ℝ) (v : Var) (hv : v ≠ .gear) : dCFUEL p w dw v = dCFUEL p w 0 v := by
  cases v <;> first | rfl | exact absurd rfl hv

theorem dParts_of (p : Inp) (dw : ℝ) (v : Var) (hv : v ≠ .gear) : dParts p dw v = dParts p 0 v := by
  cases v <;> first | rfl | exact absurd rfl hv

theorem put_get (p : Inp) (v : Var) : p.put (p.get v) v = p := by cases v <;> rfl

/-- For a fixed width of the bay the stored entries are the derivatives of the volume. -/
theorem vol_deriv (p : Inp) (w dw : ℝ) (v : Var) (hv : v ≠ .gear) (hs : p.span ≠ 0) (hx : 0 < usable p w) (hc : 0 < cfuel p w)
    (hq : 0 < cfuel p w + ctip p) : HasDerivAt (fun x => vol (p.put x v) w) (jac p w dw v) (p.get v) := by
  obtain ⟨df, dm, dx, dc, dt⟩ := parts_deriv p w v hv hs
  have hcl : HasDerivAt (fun x => (p.put x v).frac * 0.888889 * tcm (p.put x v) w * usable (p.put x v) w * cfuel (p.put x v) w *
      (cfuel (p.put x v) w + 2 * ctip (p.put x v)) / 4) (jac p w dw v) (p.get v) := by
    have h := ((((((df.mul_const 0.888889).mul dm).mul dx).mul dc).mul (dc.add (dt.const_mul 2))).div_const 4)
    refine deriv_as h (fun _ => rfl) ?_
    simp only [Pi.mul_apply, put_get, Pi.add_apply]
    rw [jac_closed p w dw v (fun e => absurd e hv) hx hc hq, dTCM_of p w dw v hv, dCFUEL_of p w dw v hv, dParts_of p dw v hv]
    ring
  refine hcl.congr_of_eventuallyEq ?_
  have e1 := dx.continuousAt.eventually (lt_mem_nhds (by simpa only [put_get] using hx))
  have e2 := dc.continuousAt.eventually (lt_mem_nhds (by simpa only [put_get] using hc))
  have e3 := (dc.add dt).continuousAt.eventually (lt_mem_nhds (by simpa only [put_get, Pi.add_apply] using hq))
  filter_upwards [e1, e2, e3] with y h1 h2 h3
  exact vol_closed _ _ h1 h2 h3

theorem put_gear (p : Inp) (x : ℝ) (v : Var) (hv : v ≠ .gear) : (p.put x v).gear = p.gear := by
  cases v <;> first | rfl | exact absurd rfl hv

/-- **All entries but the gear's are right**, with and without smoothing. -/
theorem entry_right (smooth : Bool) (mu : ℝ) (p : Inp) (w dw : ℝ) (v : Var) (hv : v ≠ .gear) (hw : wid smooth mu p.gear = .ok w)
    (hs : p.span ≠ 0) (hx : 0 < usable p w) (hc : 0 < cfuel p w) (hq : 0 < cfuel p w + ctip p) :
    ∃ g : ℝ → ℝ, (∀ x, compute smooth mu (p.put x v) = .ok (g x)) ∧ HasDerivAt g (jac p w dw v) (p.get v) := by
  refine ⟨fun x => vol (p.put x v) w, fun x => ?_, vol_deriv p w dw v hv hs hx hc hq⟩
  unfold compute
  rw [put_gear p x v hv, hw]
  rfl

/-- **Without smoothing the entry of the gear is right** where there is a derivative: it is zero. -/
theorem gear_hard (mu : ℝ) (p : Inp) (w : ℝ) (hw : wid false mu p.gear = .ok w) (hg : p.gear ≠ 0)
    (hx : 0 < usable p w) (hc : 0 < cfuel p w) (hq : 0 < cfuel p w + ctip p) :
    jac p w 0 .gear = 0 ∧
    ∃ g : ℝ → ℝ, (∀ x, compute false mu (p.put x .gear) = .ok (g x)) ∧ HasDerivAt g (jac p w 0 .gear) (p.get .gear) := by
  have h0 : jac p w 0 .gear = 0 := by
    rw [jac_closed p w 0 .gear (fun _ => rfl) hx hc hq]
    simp [dParts, dTCM, dTCF, dCFUEL]
  refine ⟨h0, fun x => vol (p.put x .gear) (if x > 0 then 6 else 0), fun x => rfl, ?_⟩
  rw [h0]
  refine (hasDerivAt_const _ (vol p w)).congr_of_eventuallyEq ?_
  have hw' : w = if p.gear > 0 then 6 else 0 := by simpa [wid, eq_comm] using hw
  have hv : ∀ y u, vol (p.put y .gear) u = vol p u := fun y u => rfl
  rcases lt_or_gt_of_ne hg with h | h
  · filter_upwards [gt_mem_nhds h] with y hy
    rw [hv, if_neg (not_lt.2 hy.le), hw', if_neg (not_lt.2 h.le)]
  · filter_upwards [lt_mem_nhds h] with y hy
    rw [hv, if_pos hy, hw', if_pos h]

/-- **Violated: the entry of the gear with smoothing.** For an untapered wing of constant thickness the stored entry is the derivative
divided by three times the steepness, so with the default 10 it is a thirtieth. -/
theorem gear_smooth_ratio (mu : ℝ) (p : Inp) (w dw : ℝ) (hm : mu ≠ 0) (hcut : p.gear / mu ≠ -320) (hw : wid true mu p.gear = .ok w)
    (hdw : dWid true mu p.gear = .ok dw) (ht : p.taper = 1) (htc : p.tcr = p.tct)
    (hx : 0 < usable p w) (hc : 0 < p.chord) :
    ∃ (g : ℝ → ℝ) (d : ℝ), (∀ x, compute true mu (p.put x .gear) = .ok (g x)) ∧ HasDerivAt g d (p.get .gear) ∧
      d = -(p.frac * 0.888889 * p.tct * (12 * (mu * dw)) * p.chord ^ 2 * 3 / 4) ∧ jac p w dw .gear = d / (3 * mu) := by
  obtain ⟨sd, hsd, f, hf, hfd⟩ := sigmoidArr_deriv p.gear 0 mu hm (by simpa using hcut)
  have hwf : w = 6 * f p.gear := by simpa [wid, hf, Except.map, eq_comm] using hw
  have hdw' : dw = sd / mu := by simpa [dWid, hsd, Except.map, eq_comm] using hdw
  have hct : ctip p = p.chord := by simp [ctip, ht]
  have hcf : ∀ u, cfuel p u = p.chord := by intro u; simp [cfuel, hct]
  have htm : ∀ u, tcm p u = p.tct := by intro u; simp [tcm, tcf, htc]; ring
  have hvol : ∀ u, 0 < usable p u → vol p u = p.frac * 0.888889 * p.tct * usable p u * p.chord ^ 2 * 3 / 4 := by
    intro u hu
    rw [vol_closed p u hu (by rw [hcf]; exact hc) (by rw [hcf, hct]; linarith), hcf, hct, htm]
    ring
  refine ⟨fun x => vol p (6 * f x), -(p.frac * 0.888889 * p.tct * (12 * (mu * dw)) * p.chord ^ 2 * 3 / 4), fun x => ?_, ?_, rfl, ?_⟩
  · simp only [compute, wid, Inp.put, if_true, hf, Except.map]
    rfl
  · have hd : HasDerivAt (fun x => p.frac * 0.888889 * p.tct * usable p (6 * f x) * p.chord ^ 2 * 3 / 4)
        (-(p.frac * 0.888889 * p.tct * (12 * (mu * dw)) * p.chord ^ 2 * 3 / 4)) p.gear := by
      have hu : HasDerivAt (fun x => usable p (6 * f x)) (-(2 * (6 * sd))) p.gear :=
        ((hfd.const_mul 6).const_mul 2).const_sub (p.span - p.width)
      have h := ((((hu.const_mul (p.frac * 0.888889 * p.tct)).mul_const (p.chord ^ 2)).mul_const 3).div_const 4)
      refine deriv_as h (fun _ => rfl) ?_
      rw [hdw']
      field_simp
      ring
    refine hd.congr_of_eventuallyEq ?_
    have hcont : ContinuousAt (fun x => usable p (6 * f x)) p.gear := by
      unfold usable
      exact continuousAt_const.sub ((hfd.continuousAt.const_mul 6).const_mul 2)
    filter_upwards [hcont.eventually (lt_mem_nhds (show 0 < usable p (6 * f p.gear) by rw [← hwf]; exact hx))] with y hy
    exact hvol _ hy
  · have hcpos : 0 < cfuel p w := by rw [hcf]; exact hc
    have hq : 0 < cfuel p w + ctip p := by rw [hcf, hct]; linarith
    have ha : 0 < √(ar p w) := Real.sqrt_pos.2 (by rw [ar_eq p w hx hq]; positivity)
    have hr2 : √(ar p w) ^ 2 * p.chord = usable p w := by
      rw [Real.sq_sqrt (by rw [ar_eq p w hx hq]; positivity), ar_eq p w hx hq, hcf, hct]; field_simp; ring
    have hsw : sw p w = usable p w * p.chord := by rw [sw_eq, hcf, hct]; ring
    have hsl : slm p w = 1 := by unfold slm; rw [hcf, hct]; field_simp
    have hus : p.span - p.width - 2 * w = usable p w := rfl
    have hsq := sqrt_sw p w hx hq
    unfold jac
    simp only [dNumer, dDenom, dTCM, dTCF, dCFUEL, dSW, dSLM, dAR, numer, denom]
    rw [pow_half, pow_half, pow_three_half _ (sw_pos p w hx hq), hsq, hsl, hcf, hct, htm, hsw, hus, htc, ht, ← hr2]
    generalize √(ar p w) = r at *
    field_simp
    ring

/-- The entry of the gear with smoothing is wrong for a wing that carries fuel. -/
theorem gear_smooth_violated : ∃ (p : Inp) (w dw : ℝ) (g : ℝ → ℝ) (d : ℝ),
    wid true 10 p.gear = .ok w ∧ dWid true 10 p.gear = .ok dw ∧ (∀ x, compute true 10 (p.put x .gear) = .ok (g x)) ∧
    HasDerivAt g d (p.get .gear) ∧ jac p w dw .gear ≠ d := by
  have hw : wid true 10 0 = .ok 3 := by
    simp only [wid, sigmoidArr, if_true, Except.map]
    norm_num
  have hd : dWid true 10 0 = .ok (1 / 400) := by
    simp only [dWid, dSigmoidArr, if_true, Except.map]
    norm_num
  obtain ⟨g, d, h1, h2, h3, h4⟩ := gear_smooth_ratio 10 ⟨1, 0, 0.1, 0.1, 20, 100, 0.5, 20⟩ 3 (1 / 400) (by norm_num) (by norm_num) hw hd rfl rfl
    (by unfold usable; norm_num) (by norm_num)
  refine ⟨⟨1, 0, 0.1, 0.1, 20, 100, 0.5, 20⟩, 3, 1 / 400, g, d, hw, hd, h1, h2, ?_⟩
  rw [h4, h3]
  norm_num

/-- **Size of the volume.** For an untapered wing of constant thickness it is two
thirds of the prism of thickness, usable span and chord times the fraction (the factor 0.888889 is 8/9 to six digits). -/
theorem vol_prism (p : Inp) (w : ℝ) (ht : p.taper = 1) (htc : p.tcr = p.tct) (hx : 0 < usable p w) (hc : 0 < p.chord) :
    vol p w = p.frac * 0.66666675 * (p.tct * p.chord) * p.chord * usable p w := by
  have hct : ctip p = p.chord := by simp [ctip, ht]
  have hcf : cfuel p w = p.chord := by simp [cfuel, hct]
  have htm : tcm p w = p.tct := by simp [tcm, tcf, htc]; ring
  rw [vol_closed p w hx (by rw [hcf]; exact hc) (by rw [hcf, hct]; linarith), hcf, hct, htm]
  ring

/-- **The exception:** only a steepness of zero with smoothing. -/
theorem compute_error_iff (smooth : Bool) (mu : ℝ) (p : Inp) (e : Err) :
    compute smooth mu p = .error e ↔ e = .valueError ∧ smooth = true ∧ mu = 0 := by
  cases smooth
  · simp [compute, wid, Except.map]
  · by_cases h : mu = 0 <;> simp [compute, wid, sigmoidArr, Except.map, h, eq_comm]

/-- A tapered wing that meets the hypotheses. -/
example : ∃ (p : Inp) (w : ℝ), wid false 10 p.gear = .ok w ∧ p.gear ≠ 0 ∧ p.taper ≠ 1 ∧ p.span ≠ 0 ∧ 0 < usable p w ∧ 0 < cfuel p w ∧
    0 < cfuel p w + ctip p :=
  ⟨⟨0.3, 0.2, 0.16, 0.1, 20, 146, 0.6, 22⟩, 6, by simp only [wid]; norm_num, by norm_num, by norm_num, by norm_num,
    by unfold usable; norm_num, by unfold cfuel ctip; norm_num, by unfold cfuel ctip; norm_num⟩

end Verif.BwbVolume
