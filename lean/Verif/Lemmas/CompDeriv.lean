import Verif.Lemmas.Deriv
import Verif.Model.SmoothMath
import Verif.Props.SmoothMath
import Mathlib.Analysis.SpecialFunctions.Trigonometric.InverseDeriv
import Mathlib.Analysis.SpecialFunctions.Trigonometric.Complex
import Mathlib.Analysis.SpecialFunctions.Trigonometric.ComplexDeriv
import Mathlib.Analysis.Calculus.Deriv.Abs

/-! Helper lemmas and tactics for the derivative theorems about components; no claims are made in
this file. -/

namespace Verif
open Real

/-- Value of `sigmoidX` (aviary/utils/math.py:29-42) for an array entry and nonzero `mu`; see
`sigmoidArr` for the version with the exception. -/
noncomputable def sigX (x x0 mu : ℝ) : ℝ :=
  if (x - x0) / mu > -320 then 1 / (1 + exp (-(x - x0) / mu)) else 0

/-- Value of `dSigmoidXdx` (aviary/utils/math.py:77-90) for an array entry and nonzero `mu`. -/
noncomputable def dsigX (x x0 mu : ℝ) : ℝ :=
  if (x - x0) / mu > -320 then
    exp (-(x - x0) / mu) / mu / ((1 + exp (-(x - x0) / mu)) * (1 + exp (-(x - x0) / mu))) else 0

theorem rpow_up {x : ℝ} (hx : 0 < x) {q f : ℝ} (n : ℕ) (h : q = f + n) :
    x ^ q = x ^ f * x ^ n := by rw [h, rpow_add hx, rpow_natCast]

theorem rpow_down {x : ℝ} (hx : 0 < x) {q f : ℝ} (n : ℕ) (h : q = f - n) :
    x ^ q = x ^ f / x ^ n := by rw [h, rpow_sub hx, rpow_natCast]

theorem rpow_comp {x : ℝ} (hx : 0 < x) {q f : ℝ} (n : ℕ) (h : q = n - f) :
    x ^ q = x ^ n / x ^ f := by rw [h, rpow_sub hx, rpow_natCast]

theorem rpow_compn {x : ℝ} (hx : 0 < x) {q f : ℝ} (n : ℕ) (h : q = -n - f) :
    x ^ q = 1 / (x ^ n * x ^ f) := by rw [h, rpow_sub hx, rpow_neg hx.le, rpow_natCast]; field_simp

theorem half_sq {x : ℝ} (hx : 0 < x) : (x ^ (1 / 2 : ℝ)) ^ 2 = x := by
  rw [← rpow_natCast, ← rpow_mul hx.le]; norm_num

theorem one_div_half {x : ℝ} (hx : 0 < x) : 1 / x ^ (1 / 2 : ℝ) = x ^ (1 / 2 : ℝ) / x := by
  have h := half_sq hx
  have hp : 0 < x ^ (1 / 2 : ℝ) := by positivity
  rw [div_eq_div_iff hp.ne' hx.ne', one_mul, ← sq, h]

theorem div_half {x : ℝ} (a : ℝ) (hx : 0 < x) :
    a / x ^ (1 / 2 : ℝ) = a * (x ^ (1 / 2 : ℝ) / x) := by
  rw [← one_div_half hx]; ring

theorem inv_half {x : ℝ} (hx : 0 < x) : (x ^ (1 / 2 : ℝ))⁻¹ = x ^ (1 / 2 : ℝ) / x := by
  rw [← one_div_half hx]; exact (one_div _).symm

theorem half_cube {x : ℝ} (hx : 0 < x) : (x ^ (1 / 2 : ℝ)) ^ 3 = x * x ^ (1 / 2 : ℝ) := by
  rw [pow_succ, half_sq hx]

theorem half_four {x : ℝ} (hx : 0 < x) : (x ^ (1 / 2 : ℝ)) ^ 4 = x ^ 2 := by
  rw [show (4 : ℕ) = 2 * 2 from rfl, pow_mul, half_sq hx]

theorem hasDerivAt_rpowd {f : ℝ → ℝ} {f' x p : ℝ} (hf : HasDerivAt f f' x) (h : f x ≠ 0) :
    HasDerivAt (fun y => f y ^ p) (f' * p * (f x ^ p / f x)) x := by
  have := hf.rpow_const (p := p) (Or.inl h)
  rwa [rpow_sub_one h] at this

theorem hasDerivAt_powd {f : ℝ → ℝ} {f' x : ℝ} (n : ℕ) (hf : HasDerivAt f f' x) :
    HasDerivAt (fun y => f y ^ (n + 1)) ((n + 1) * f x ^ n * f') x := by
  simpa using hf.fun_pow (n + 1)

theorem hasDerivAt_pow2 {f : ℝ → ℝ} {f' x : ℝ} (hf : HasDerivAt f f' x) :
    HasDerivAt (fun y => f y ^ 2) (2 * f x * f') x := by
  simpa using hf.fun_pow 2

theorem hasDerivAt_pow3 {f : ℝ → ℝ} {f' x : ℝ} (hf : HasDerivAt f f' x) :
    HasDerivAt (fun y => f y ^ 3) (3 * f x ^ 2 * f') x := by
  simpa using hf.fun_pow 3

theorem hasDerivAt_powN {f : ℝ → ℝ} {f' x : ℝ} (n : ℕ) [n.AtLeastTwo] (hf : HasDerivAt f f' x) :
    HasDerivAt (fun y => f y ^ (OfNat.ofNat n : ℕ))
      ((OfNat.ofNat n : ℝ) * f x ^ (OfNat.ofNat n - 1 : ℕ) * f') x := by
  simpa using hf.fun_pow (OfNat.ofNat n)

theorem hasDerivAt_tand {f : ℝ → ℝ} {f' x : ℝ} (hf : HasDerivAt f f' x) (h : cos (f x) ≠ 0) :
    HasDerivAt (fun y => tan (f y)) (f' * (1 / cos (f x) ^ 2)) x := by
  have := (hasDerivAt_tan h).comp x hf
  simpa [mul_comm, Function.comp_def] using this

theorem hasDerivAt_tanhd {f : ℝ → ℝ} {f' x : ℝ} (hf : HasDerivAt f f' x) :
    HasDerivAt (fun y => tanh (f y)) (f' * (1 - tanh (f x) ^ 2)) x := by
  have := (tanh_deriv (f x)).comp x hf
  simpa [mul_comm, Function.comp_def] using this

theorem hasDerivAt_arcsind {f : ℝ → ℝ} {f' x : ℝ} (hf : HasDerivAt f f' x) (h1 : -1 < f x)
    (h2 : f x < 1) : HasDerivAt (fun y => arcsin (f y)) (f' * ((1 - f x ^ 2) ^ (1 / 2 : ℝ) / (1 - f x ^ 2))) x := by
  have := (hasDerivAt_arcsin h1.ne' h2.ne).comp x hf
  rw [sqrt_eq_rpow, one_div_half (by nlinarith)] at this
  simpa [mul_comm, Function.comp_def] using this

theorem hasDerivAt_arccosd {f : ℝ → ℝ} {f' x : ℝ} (hf : HasDerivAt f f' x) (h1 : -1 < f x)
    (h2 : f x < 1) : HasDerivAt (fun y => arccos (f y)) (f' * -((1 - f x ^ 2) ^ (1 / 2 : ℝ) / (1 - f x ^ 2))) x := by
  have := (hasDerivAt_arccos h1.ne' h2.ne).comp x hf
  rw [sqrt_eq_rpow, one_div_half (by nlinarith)] at this
  simpa [mul_comm, Function.comp_def] using this

theorem hasDerivAt_arctand {f : ℝ → ℝ} {f' x : ℝ} (hf : HasDerivAt f f' x) :
    HasDerivAt (fun y => arctan (f y)) (f' * (1 / (1 + f x ^ 2))) x := by
  have := hf.arctan; simpa [mul_comm] using this

theorem hasDerivAt_sigX {f g : ℝ → ℝ} {f' g' x mu : ℝ} (hf : HasDerivAt f f' x)
    (hg : HasDerivAt g g' x) (hmu : mu ≠ 0) (h : (f x - g x) / mu ≠ -320) :
    HasDerivAt (fun y => sigX (f y) (g y) mu) ((f' - g') * dsigX (f x) (g x) mu) x := by
  have h0 : ∀ z : ℝ, (if (z / mu) > -320 then 1 / (1 + exp (-z / mu)) else 0) = sigX z 0 mu := by
    intro z; simp [sigX]
  have key : HasDerivAt (fun z => sigX z 0 mu) (dsigX (f x - g x) 0 mu) (f x - g x) := by
    rcases lt_or_gt_of_ne h with hlt | hgt
    · have e : (fun z => sigX z 0 mu) =ᶠ[nhds (f x - g x)] fun _ => 0 := by
        have hc : ContinuousAt (fun z : ℝ => z / mu) (f x - g x) := by fun_prop
        filter_upwards [hc.eventually_lt_const hlt] with z hz
        simp only [sigX, sub_zero, gt_iff_lt, if_neg (not_lt.mpr hz.le)]
      have : dsigX (f x - g x) 0 mu = 0 := by
        simp only [dsigX, sub_zero, gt_iff_lt, if_neg (not_lt.mpr hlt.le)]
      rw [this]
      exact (hasDerivAt_const _ _).congr_of_eventuallyEq e
    · have e : (fun z => sigX z 0 mu) =ᶠ[nhds (f x - g x)] fun z => 1 / (1 + exp (-z / mu)) := by
        have hc : ContinuousAt (fun z : ℝ => z / mu) (f x - g x) := by fun_prop
        filter_upwards [hc.eventually_const_lt hgt] with z hz
        simp only [sigX, sub_zero, gt_iff_lt, if_pos hz]
      have e2 : dsigX (f x - g x) 0 mu = exp (-(f x - g x) / mu) / mu /
          ((1 + exp (-(f x - g x) / mu)) * (1 + exp (-(f x - g x) / mu))) := by
        simp only [dsigX, sub_zero, gt_iff_lt, if_pos hgt]
      rw [e2]
      refine HasDerivAt.congr_of_eventuallyEq ?_ e
      deriv_build
      · positivity
      · field_simp; ring
  have h2 := key.comp x (hf.sub hg)
  have e1 : dsigX (f x) (g x) mu = dsigX (f x - g x) 0 mu := by simp [dsigX]
  rw [e1, mul_comm]
  refine h2.congr_of_eventuallyEq (Filter.Eventually.of_forall fun y => ?_)
  simp [sigX]

theorem hasDerivAt_smoothMaxd {f g : ℝ → ℝ} {f' g' x mu : ℝ} (hf : HasDerivAt f f' x)
    (hg : HasDerivAt g g' x) (h : mu ≠ 0) :
    HasDerivAt (fun y => smoothMax (f y) (g y) mu)
      (f' * dSmoothMax (f x) (g x) mu + g' * (1 - dSmoothMax (f x) (g x) mu)) x := by
  have e : (fun y => smoothMax (f y) (g y) mu) =
      fun y => log (exp (mu * f y) + exp (mu * g y)) / mu := by
    funext y; exact smoothMax_eq _ _ _ h
  rw [e, dSmoothMax_eq]
  deriv_build
  · positivity
  · field_simp; ring

theorem hasDerivAt_smoothMind {f g : ℝ → ℝ} {f' g' x mu : ℝ} (hf : HasDerivAt f f' x)
    (hg : HasDerivAt g g' x) (h : mu ≠ 0) :
    HasDerivAt (fun y => smoothMin (f y) (g y) mu)
      (f' * dSmoothMin (f x) (g x) mu + g' * (1 - dSmoothMin (f x) (g x) mu)) x := by
  unfold smoothMin dSmoothMin
  deriv_build
  · positivity
  · field_simp; ring

theorem hasDerivAt_sinInt4d {f : ℝ → ℝ} {f' x : ℝ} (hf : HasDerivAt f f' x) :
    HasDerivAt (fun y => sinInt4 (f y)) (f' * dSinInt4 (f x)) x := by
  have := (sinInt4_deriv (f x)).comp x hf
  simpa [mul_comm, Function.comp_def] using this

section ite
variable {a b f g : ℝ → ℝ} {f' g' x : ℝ}

theorem hasDerivAt_ite_lt {inst : ∀ t, Decidable (a t < b t)}
    (ha : ContinuousAt a x) (hb : ContinuousAt b x) (hne : a x ≠ b x)
    (hf : a x < b x → HasDerivAt f f' x) (hg : b x < a x → HasDerivAt g g' x) :
    HasDerivAt (fun t => @ite _ (a t < b t) (inst t) (f t) (g t))
      (@ite _ (a x < b x) (inst x) f' g') x := by
  rcases lt_or_gt_of_ne hne with h | h
  · rw [if_pos h]
    refine (hf h).congr_of_eventuallyEq ?_
    filter_upwards [ha.eventually_lt hb h] with t ht
    rw [if_pos ht]
  · rw [if_neg (not_lt.mpr (le_of_lt h))]
    refine (hg h).congr_of_eventuallyEq ?_
    filter_upwards [hb.eventually_lt ha h] with t ht
    rw [if_neg (not_lt.mpr ht.le)]

theorem hasDerivAt_ite_le {inst : ∀ t, Decidable (a t ≤ b t)}
    (ha : ContinuousAt a x) (hb : ContinuousAt b x) (hne : a x ≠ b x)
    (hf : a x < b x → HasDerivAt f f' x) (hg : b x < a x → HasDerivAt g g' x) :
    HasDerivAt (fun t => @ite _ (a t ≤ b t) (inst t) (f t) (g t))
      (@ite _ (a x ≤ b x) (inst x) f' g') x := by
  rcases lt_or_gt_of_ne hne with h | h
  · rw [if_pos h.le]
    refine (hf h).congr_of_eventuallyEq ?_
    filter_upwards [ha.eventually_lt hb h] with t ht
    rw [if_pos ht.le]
  · rw [if_neg (not_le.mpr h)]
    refine (hg h).congr_of_eventuallyEq ?_
    filter_upwards [hb.eventually_lt ha h] with t ht
    rw [if_neg (not_le.mpr ht)]

theorem hasDerivAt_ite_eq {inst : ∀ t, Decidable (a t = b t)}
    (ha : ContinuousAt a x) (hb : ContinuousAt b x) (hne : a x ≠ b x)
    (hg : HasDerivAt g g' x) :
    HasDerivAt (fun t => @ite _ (a t = b t) (inst t) (f t) (g t)) g' x := by
  refine hg.congr_of_eventuallyEq ?_
  filter_upwards [ha.ne_iff_eventually_ne hb |>.mp hne] with t ht
  rw [if_neg ht]

theorem hasDerivAt_maxd (hne : f x ≠ g x) (hf : HasDerivAt f f' x) (hg : HasDerivAt g g' x) :
    HasDerivAt (fun t => max (f t) (g t)) (if f x ≤ g x then g' else f') x := by
  have := hasDerivAt_ite_le (inst := fun _ => inferInstance) (f := g) (g := f) hf.continuousAt hg.continuousAt hne
    (fun _ => hg) (fun _ => hf)
  refine this.congr_of_eventuallyEq (Filter.Eventually.of_forall fun t => ?_)
  simp [max_def]

theorem hasDerivAt_mind (hne : f x ≠ g x) (hf : HasDerivAt f f' x) (hg : HasDerivAt g g' x) :
    HasDerivAt (fun t => min (f t) (g t)) (if f x ≤ g x then f' else g') x := by
  have := hasDerivAt_ite_le (inst := fun _ => inferInstance) (f := f) (g := g) hf.continuousAt hg.continuousAt hne
    (fun _ => hf) (fun _ => hg)
  refine this.congr_of_eventuallyEq (Filter.Eventually.of_forall fun t => ?_)
  simp [min_def]

end ite

/-- Builds a `HasDerivAt` proof structurally; leaves the side goals (non-vanishing etc.). -/
macro "comp_step" : tactic => `(tactic| first
  | with_reducible exact hasDerivAt_const _ _
  | with_reducible exact hasDerivAt_id' _
  | assumption
  | with_reducible apply HasDerivAt.const_mul
  | with_reducible apply HasDerivAt.mul_const
  | with_reducible apply HasDerivAt.div_const
  | with_reducible apply HasDerivAt.const_add
  | with_reducible apply HasDerivAt.add_const
  | with_reducible apply HasDerivAt.const_sub
  | with_reducible apply HasDerivAt.sub_const
  | with_reducible apply HasDerivAt.fun_add
  | with_reducible apply HasDerivAt.fun_sub
  | with_reducible apply HasDerivAt.fun_mul
  | with_reducible apply HasDerivAt.fun_div
  | with_reducible apply HasDerivAt.fun_neg
  | with_reducible apply HasDerivAt.fun_inv
  | with_reducible apply hasDerivAt_pow2
  | with_reducible apply hasDerivAt_pow3
  | with_reducible apply hasDerivAt_pow'
  | with_reducible apply hasDerivAt_rpowd
  | with_reducible apply HasDerivAt.exp
  | with_reducible apply HasDerivAt.log
  | with_reducible apply HasDerivAt.sin
  | with_reducible apply HasDerivAt.cos
  | with_reducible apply hasDerivAt_tand
  | with_reducible apply hasDerivAt_arctand
  | with_reducible apply hasDerivAt_tanhd
  | with_reducible apply hasDerivAt_arcsind
  | with_reducible apply hasDerivAt_arccosd
  | with_reducible apply hasDerivAt_sigX
  | with_reducible apply hasDerivAt_smoothMaxd
  | with_reducible apply hasDerivAt_smoothMind
  | with_reducible apply hasDerivAt_sinInt4d
  | with_reducible apply hasDerivAt_maxd
  | with_reducible apply hasDerivAt_mind
  | with_reducible apply hasDerivAt_ite_lt
  | with_reducible apply hasDerivAt_ite_le
  | (show _ → HasDerivAt _ _ _; intro _)
  | with_reducible apply hasDerivAt_ite_eq
  | with_reducible apply HasDerivAt.sqrt)

/-- Side conditions of `comp_step`. -/
macro "comp_side" : tactic => `(tactic| first
  | assumption
  | positivity
  | (apply Ne.symm; assumption)
  | (apply ne_of_gt; assumption)
  | (apply ne_of_lt; assumption)
  | fun_prop (disch := positivity)
  | (refine sub_ne_zero.mpr ?_; assumption)
  | (norm_num; done))

/-- Rational identities between derivatives. -/
macro "comp_eq" : tactic => `(tactic| first
  | rfl
  | ring1
  | (field_simp; done)
  | (field_simp; ring1)
  | (field_simp; simp (disch := positivity) only [half_sq, half_cube, half_four]; done)
  | (field_simp; simp (disch := positivity) only [half_sq, half_cube, half_four]; ring1))

/-- Hypotheses of the component theorems at concrete values. -/
macro "comp_example" : tactic => `(tactic| first
  | positivity
  | (norm_num; done)
  | (norm_num [Real.pi_pos.ne', Real.pi_ne_zero]; done))

end Verif
