import Verif.Model.SmoothMath
import Verif.Lemmas.Deriv
import Mathlib.Analysis.SpecialFunctions.Sigmoid
import Mathlib.Analysis.SpecialFunctions.Trigonometric.DerivHyp
import Mathlib.Analysis.SpecialFunctions.Artanh
import Mathlib.Analysis.Calculus.Deriv.MeanValue
import Mathlib.Topology.Algebra.Order.Floor

/-! # C21, C22: smooth functions -/

namespace Verif
open Real

/-! ## C21 -/

theorem smoothMax_eq (x b mu : ℝ) (_h : mu ≠ 0) : smoothMax x b mu = log (exp (mu * x) + exp (mu * b)) / mu := by
  unfold smoothMax
  simp only
  set m := max (mu * x) (mu * b)
  have h1 : exp (mu * x) + exp (mu * b) = exp m * (exp (mu * x - m) + exp (mu * b - m)) := by
    rw [mul_add, ← exp_add, ← exp_add]; congr 2 <;> ring
  rw [h1, log_mul (exp_pos _).ne' (by positivity), log_exp]

theorem dSmoothMax_eq (x b mu : ℝ) : dSmoothMax x b mu = exp (mu * x) / (exp (mu * x) + exp (mu * b)) := by
  unfold dSmoothMax
  simp only
  set m := max (mu * x) (mu * b)
  rw [exp_sub, exp_sub]
  have := (exp_pos m).ne'
  field_simp

theorem smoothMin_eq_neg_max (x b mu : ℝ) (h : mu ≠ 0) : smoothMin x b mu = -smoothMax (-x) (-b) mu := by
  rw [smoothMax_eq _ _ _ h]
  unfold smoothMin
  have e1 : mu * -x = -mu * x := by ring
  have e2 : mu * -b = -mu * b := by ring
  rw [e1, e2]
  field_simp

/-- **C21 (bounds for the maximum).** For every steepness `mu > 0` the smooth maximum is above the maximum, by at most
`log 2 / mu`. -/
theorem smoothMax_bounds (x b mu : ℝ) (h : 0 < mu) :
    max x b < smoothMax x b mu ∧ smoothMax x b mu ≤ max x b + log 2 / mu := by
  rw [smoothMax_eq _ _ _ h.ne']
  have hl : ∀ y z : ℝ, y < log (exp y + exp z) := by
    intro y z
    conv_lhs => rw [← log_exp y]
    exact log_lt_log (exp_pos _) (by linarith [exp_pos z])
  constructor
  · rw [lt_div_iff₀ h]
    rcases le_total x b with hx | hx
    · rw [max_eq_right hx, mul_comm, add_comm]; exact hl _ _
    · rw [max_eq_left hx, mul_comm]; exact hl _ _
  · rw [div_le_iff₀ h, add_mul, div_mul_cancel₀ _ h.ne']
    have hm : exp (mu * x) + exp (mu * b) ≤ 2 * exp (max x b * mu) := by
      have h1 : exp (mu * x) ≤ exp (max x b * mu) := exp_le_exp.2 (by
        rw [mul_comm]; exact mul_le_mul_of_nonneg_right (le_max_left _ _) h.le)
      have h2 : exp (mu * b) ≤ exp (max x b * mu) := exp_le_exp.2 (by
        rw [mul_comm]; exact mul_le_mul_of_nonneg_right (le_max_right _ _) h.le)
      linarith
    calc log (exp (mu * x) + exp (mu * b)) ≤ log (2 * exp (max x b * mu)) := log_le_log (by positivity) hm
      _ = max x b * mu + log 2 := by rw [log_mul (by norm_num) (exp_pos _).ne', log_exp, add_comm]

/-- **C21 (bounds for the minimum).** -/
theorem smoothMin_bounds (x b mu : ℝ) (h : 0 < mu) :
    smoothMin x b mu < min x b ∧ min x b - log 2 / mu ≤ smoothMin x b mu := by
  rw [smoothMin_eq_neg_max _ _ _ h.ne']
  obtain ⟨h1, h2⟩ := smoothMax_bounds (-x) (-b) mu h
  have : max (-x) (-b) = -min x b := max_neg_neg x b
  rw [this] at h1 h2
  constructor <;> linarith

/-- **C21 (derivative of the maximum).** -/
theorem smoothMax_deriv (x b mu : ℝ) (h : mu ≠ 0) :
    HasDerivAt (fun y => smoothMax y b mu) (dSmoothMax x b mu) x := by
  have e : (fun y => smoothMax y b mu) = fun y => log (exp (mu * y) + exp (mu * b)) / mu :=
    funext fun y => smoothMax_eq y b mu h
  rw [e, dSmoothMax_eq]
  have hp : exp (mu * x) + exp (mu * b) ≠ 0 := by positivity
  deriv_build
  all_goals field_simp <;> ring

/-- **C21 (derivative of the minimum).** -/
theorem smoothMin_deriv (x b mu : ℝ) (h : mu ≠ 0) :
    HasDerivAt (fun y => smoothMin y b mu) (dSmoothMin x b mu) x := by
  unfold smoothMin dSmoothMin
  have hp : exp (-mu * x) + exp (-mu * b) ≠ 0 := by positivity
  deriv_build
  all_goals field_simp <;> ring

/-- **C21 (derivatives are weights).** -/
theorem dSmooth_range (x b mu : ℝ) :
    0 < dSmoothMax x b mu ∧ dSmoothMax x b mu < 1 ∧ 0 < dSmoothMin x b mu ∧ dSmoothMin x b mu < 1 := by
  rw [dSmoothMax_eq]
  unfold dSmoothMin
  refine ⟨by positivity, ?_, by positivity, ?_⟩
  all_goals
    rw [div_lt_one (by positivity)]
    first | linarith [exp_pos (mu * b)] | linarith [exp_pos (-mu * b)]

/-! ## C22: sigmoid -/

theorem sigmoid_term (x x0 mu : ℝ) : 1 / (1 + exp (-(x - x0) / mu)) = sigmoid ((x - x0) / mu) := by
  rw [sigmoid_def, one_div, neg_div]

/-- **C22 (sigmoid on arrays).** For every non-zero `mu`: an error only for `mu = 0`; values in [0, 1), exactly 1/2 at
`x0`, and within `exp(-320)` of the mathematical sigmoid everywhere. -/
theorem sigmoidArr_spec (x x0 mu : ℝ) :
    (mu = 0 → sigmoidArr x x0 mu = .error .valueError) ∧
    (mu ≠ 0 → ∃ y, sigmoidArr x x0 mu = .ok y ∧ 0 ≤ y ∧ y < 1 ∧ (x = x0 → y = 1 / 2) ∧
      |y - 1 / (1 + exp (-(x - x0) / mu))| ≤ exp (-320)) := by
  refine ⟨fun h => by simp [sigmoidArr, h], fun h => ?_⟩
  unfold sigmoidArr
  rw [if_neg h]
  refine ⟨_, rfl, ?_⟩
  by_cases hc : (x - x0) / mu > -320
  · rw [if_pos hc]
    refine ⟨by positivity, ?_, ?_, by simpa using (exp_pos _).le⟩
    · rw [sigmoid_term]; exact sigmoid_lt_one _
    · rintro rfl; norm_num
  · rw [if_neg hc]
    refine ⟨le_refl _, one_pos, ?_, ?_⟩
    · rintro rfl; norm_num at hc
    · rw [zero_sub, abs_neg, abs_of_pos (by positivity), div_le_iff₀ (by positivity)]
      have h1 : exp 320 ≤ exp (-(x - x0) / mu) := exp_le_exp.2 (by rw [neg_div]; linarith [not_lt.1 hc])
      have h2 : exp (-320) * exp 320 = 1 := by rw [← exp_add]; norm_num
      nlinarith [exp_pos (-320 : ℝ)]

/-- **C22 (monotone).** -/
theorem sigmoidArr_mono (x y x0 mu : ℝ) (h : 0 < mu) (hxy : x ≤ y) :
    ∃ a b, sigmoidArr x x0 mu = .ok a ∧ sigmoidArr y x0 mu = .ok b ∧ a ≤ b := by
  unfold sigmoidArr
  rw [if_neg h.ne', if_neg h.ne']
  refine ⟨_, _, rfl, rfl, ?_⟩
  have hle : (x - x0) / mu ≤ (y - x0) / mu := div_le_div_of_nonneg_right (by linarith) h.le
  by_cases hx : (x - x0) / mu > -320
  · rw [if_pos hx, if_pos (by linarith), sigmoid_term, sigmoid_term]
    exact sigmoid_le hle
  · rw [if_neg hx]
    split_ifs
    · positivity
    · exact le_refl _

/-- **C22 (sigmoid derivative on arrays).** Away from the cut-off point the returned derivative is the true derivative
of the returned function. -/
theorem sigmoidArr_deriv (x x0 mu : ℝ) (h : mu ≠ 0) (hc : (x - x0) / mu ≠ -320) :
    ∃ d, dSigmoidArr x x0 mu = .ok d ∧ ∃ f : ℝ → ℝ, (∀ y, sigmoidArr y x0 mu = .ok (f y)) ∧ HasDerivAt f d x := by
  refine ⟨_, by rw [dSigmoidArr, if_neg h], _, fun y => by rw [sigmoidArr, if_neg h], ?_⟩
  have hcont : Continuous fun y : ℝ => (y - x0) / mu := by fun_prop
  rcases lt_or_gt_of_ne hc with hl | hg
  · rw [if_neg (by linarith)]
    apply (hasDerivAt_const x (0 : ℝ)).congr_of_eventuallyEq
    filter_upwards [hcont.continuousAt.eventually (gt_mem_nhds hl)] with y hy
    rw [if_neg (not_lt.2 hy.le)]
  · rw [if_pos hg]
    have hb : HasDerivAt (fun y => 1 / (1 + exp (-(y - x0) / mu)))
        (exp (-(x - x0) / mu) / mu / ((1 + exp (-(x - x0) / mu)) * (1 + exp (-(x - x0) / mu)))) x := by
      have hp : 1 + exp (-(x - x0) / mu) ≠ 0 := by positivity
      deriv_build
      all_goals field_simp <;> ring
    apply hb.congr_of_eventuallyEq
    filter_upwards [hcont.continuousAt.eventually (lt_mem_nhds hg)] with y hy
    rw [if_pos hy]

/-- **C22 violated (scalars and arrays disagree).** With `mu = 320` the scalar call at `x0 - 1` returns 0, while the same
point in an array gives more than 0.4. -/
theorem sigmoidScalar_cutoff_violated :
    ∃ a b, sigmoidScalar (-1) 0 320 = .ok a ∧ sigmoidArr (-1) 0 320 = .ok b ∧ a = 0 ∧ 0.4 < b := by
  unfold sigmoidScalar sigmoidArr
  rw [if_neg (by norm_num), if_neg (by norm_num), if_neg (by norm_num), if_pos (by norm_num)]
  refine ⟨_, _, rfl, rfl, rfl, ?_⟩
  have h1 : exp (-(-1 - 0) / 320 : ℝ) < 1.5 := by
    have e : exp (-(-1 - 0) / 320 : ℝ) = (exp (-(1 / 320)))⁻¹ := by rw [← exp_neg]; norm_num
    have h2 : (1 : ℝ) - 1 / 320 ≤ exp (-(1 / 320)) := by linarith [add_one_le_exp (-(1 / 320) : ℝ)]
    rw [e]
    calc (exp (-(1 / 320) : ℝ))⁻¹ ≤ (1 - 1 / 320)⁻¹ := inv_anti₀ (by norm_num) h2
      _ < 1.5 := by norm_num
  rw [lt_div_iff₀ (by positivity)]
  norm_num at h1 ⊢
  linarith

/-- **C22 violated (scalar derivative).** The derivative of the sigmoid cannot be called with a scalar at all. -/
theorem dSigmoidScalar_violated (x x0 mu : ℝ) : ∃ e, dSigmoidScalar x x0 mu = .error e := by
  unfold dSigmoidScalar; split_ifs <;> exact ⟨_, rfl⟩

/-! ## C22: sine approximation of `int` -/

theorem sinInt_deriv (v : ℝ) : HasDerivAt sinInt (dSinInt v) v := by
  unfold sinInt dSinInt
  have hpi := pi_pos.ne'
  have h2 : 2 * π ≠ 0 := by positivity
  deriv_build
  all_goals field_simp <;> ring

theorem sinInt4_deriv (v : ℝ) : HasDerivAt sinInt4 (dSinInt4 v) v := by
  have h := ((((sinInt_deriv (sinInt (sinInt (sinInt v)))).comp v
    ((sinInt_deriv (sinInt (sinInt v))).comp v ((sinInt_deriv (sinInt v)).comp v (sinInt_deriv v))))).sub_const 0.5)
  refine hasDerivAt_of_eq h ?_
  unfold dSinInt4
  simp only
  ring

theorem sin_shift (v : ℝ) (n : ℤ) (h : v = n ∨ v = n + 0.5) : sin (2 * π * (v + 0.5)) = 0 := by
  rcases h with rfl | rfl
  · have : 2 * π * ((n : ℝ) + 0.5) = ((2 * n + 1 : ℤ) : ℝ) * π := by push_cast; ring
    rw [this, sin_int_mul_pi]
  · have : 2 * π * ((n : ℝ) + 0.5 + 0.5) = ((2 * n + 2 : ℤ) : ℝ) * π := by push_cast; ring
    rw [this, sin_int_mul_pi]

/-- **C22 (fixed points).** One step leaves the integers and the half-integers alone. -/
theorem sinInt_fixed (n : ℤ) : sinInt n = n ∧ sinInt (n + 0.5) = n + 0.5 := by
  unfold sinInt
  rw [sin_shift _ n (Or.inl rfl), sin_shift _ n (Or.inr rfl)]
  constructor <;> ring

theorem sinInt_mono : Monotone sinInt := by
  apply monotone_of_deriv_nonneg (fun v => (sinInt_deriv v).differentiableAt)
  intro v
  rw [(sinInt_deriv v).deriv]
  unfold dSinInt
  linarith [cos_le_one (2 * π * (v + 0.5))]

/-- **C22 (how well it approximates).** `sin_int4` never decreases and is within 1/2 of the integer part everywhere; at
half-integers it is exact. -/
theorem sinInt4_approx (v : ℝ) : |sinInt4 v - ⌊v⌋| ≤ 1 / 2 ∧ ∀ n : ℤ, sinInt4 (n + 0.5) = n := by
  constructor
  · have step : ∀ w : ℝ, (⌊v⌋ : ℝ) ≤ w ∧ w ≤ ⌊v⌋ + 1 → (⌊v⌋ : ℝ) ≤ sinInt w ∧ sinInt w ≤ ⌊v⌋ + 1 := by
      intro w ⟨h1, h2⟩
      have e1 := (sinInt_fixed ⌊v⌋).1
      have e2 := (sinInt_fixed (⌊v⌋ + 1)).1
      push_cast at e2
      exact ⟨e1 ▸ sinInt_mono h1, e2 ▸ sinInt_mono h2⟩
    have h := step _ (step _ (step _ (step v ⟨Int.floor_le v, (Int.lt_floor_add_one v).le⟩)))
    rw [abs_le]
    unfold sinInt4
    constructor <;> linarith [h.1, h.2]
  · intro n
    unfold sinInt4
    rw [(sinInt_fixed n).2, (sinInt_fixed n).2, (sinInt_fixed n).2, (sinInt_fixed n).2]
    ring

theorem sinInt4_mono : Monotone sinInt4 := fun a b h => by
  unfold sinInt4
  linarith [sinInt_mono (sinInt_mono (sinInt_mono (sinInt_mono h)))]

/-! ## C22: tanh approximation of `int` -/

theorem tanh_deriv (x : ℝ) : HasDerivAt tanh (1 - tanh x ^ 2) x := by
  have hc := (cosh_pos x).ne'
  have h := (hasDerivAt_sinh x).div (hasDerivAt_cosh x) hc
  have e : tanh = (fun y => sinh y / cosh y) := funext fun y => tanh_eq_sinh_div_cosh y
  rw [tanh_eq_sinh_div_cosh, e]
  refine hasDerivAt_of_eq h ?_
  field_simp

/-- **C22 (tanh derivative).** Away from the integers the returned derivative is exact. -/
theorem smoothIntTanh_deriv (x mu : ℝ) (h : x ≠ ⌊x⌋) :
    HasDerivAt (fun y => smoothIntTanh y mu) (dSmoothIntTanh x mu) x := by
  have hin : HasDerivAt (fun y => (⌊x⌋ : ℝ) + 0.5 * (tanh (mu * (y - ⌊x⌋ - 0.5)) + 1)) (dSmoothIntTanh x mu) x := by
    have h1 : HasDerivAt (fun y => mu * (y - ⌊x⌋ - 0.5)) mu x := by
      deriv_build
      all_goals ring
    have h2 := (((tanh_deriv (mu * (x - ⌊x⌋ - 0.5))).comp x h1).add_const 1).const_mul 0.5
    have h3 := h2.const_add (⌊x⌋ : ℝ)
    refine hasDerivAt_of_eq h3 ?_
    unfold dSmoothIntTanh
    ring
  apply hin.congr_of_eventuallyEq
  have hlt : (⌊x⌋ : ℝ) < x := lt_of_le_of_ne (Int.floor_le x) (Ne.symm h)
  filter_upwards [lt_mem_nhds hlt, gt_mem_nhds (Int.lt_floor_add_one x)] with y h1 h2
  have : ⌊y⌋ = ⌊x⌋ := Int.floor_eq_iff.2 ⟨h1.le, h2⟩
  unfold smoothIntTanh
  rw [this]

/-- **C22 (range).** The result stays strictly between the integer part and the next integer. -/
theorem smoothIntTanh_range (x mu : ℝ) : (⌊x⌋ : ℝ) < smoothIntTanh x mu ∧ smoothIntTanh x mu < ⌊x⌋ + 1 := by
  unfold smoothIntTanh
  have h := tanh_bijOn.mapsTo (Set.mem_univ (mu * (x - ⌊x⌋ - 0.5)))
  obtain ⟨h1, h2⟩ := h
  constructor <;> linarith

/-- **C22 violated (not smooth).** For every steepness the function jumps at every integer. -/
theorem smoothIntTanh_discontinuous_violated (n : ℤ) (mu : ℝ) :
    ¬ ContinuousAt (fun y => smoothIntTanh y mu) n := by
  intro hc
  have hl : Filter.Tendsto (fun y => smoothIntTanh y mu) (nhdsWithin (n : ℝ) (Set.Iio n)) (nhds (smoothIntTanh n mu)) :=
    hc.tendsto.mono_left nhdsWithin_le_nhds
  have hl' : Filter.Tendsto (fun y : ℝ => ((n : ℝ) - 1) + 0.5 * (tanh (mu * (y - (n - 1) - 0.5)) + 1))
      (nhdsWithin (n : ℝ) (Set.Iio n)) (nhds (((n : ℝ) - 1) + 0.5 * (tanh (mu * (n - (n - 1) - 0.5)) + 1))) := by
    have hct : Continuous tanh := continuous_iff_continuousAt.2 fun y => (tanh_deriv y).continuousAt
    have : Continuous fun y : ℝ => ((n : ℝ) - 1) + 0.5 * (tanh (mu * (y - (n - 1) - 0.5)) + 1) := by fun_prop
    exact this.continuousAt.tendsto.mono_left nhdsWithin_le_nhds
  have heq : (fun y => smoothIntTanh y mu) =ᶠ[nhdsWithin (n : ℝ) (Set.Iio n)]
      (fun y : ℝ => ((n : ℝ) - 1) + 0.5 * (tanh (mu * (y - (n - 1) - 0.5)) + 1)) := by
    have h1 : ∀ᶠ y in nhdsWithin (n : ℝ) (Set.Iio n), (n : ℝ) - 1 < y :=
      nhdsWithin_le_nhds (lt_mem_nhds (by linarith))
    filter_upwards [h1, self_mem_nhdsWithin] with y h1 h2
    have : ⌊y⌋ = n - 1 := Int.floor_eq_iff.2 ⟨by push_cast; linarith, by push_cast; simpa using h2⟩
    unfold smoothIntTanh
    rw [this]; push_cast; rfl
  have hu := tendsto_nhds_unique (hl'.congr' heq.symm) hl
  unfold smoothIntTanh at hu
  rw [Int.floor_intCast] at hu
  have e1 : mu * ((n : ℝ) - (n - 1) - 0.5) = mu * 0.5 := by ring
  have e2 : mu * ((n : ℝ) - n - 0.5) = -(mu * 0.5) := by ring
  rw [e1, e2, tanh_neg] at hu
  have h := (tanh_bijOn.mapsTo (Set.mem_univ (mu * 0.5))).2
  linarith

example : (2.5 : ℝ) ≠ ⌊(2.5 : ℝ)⌋ := by
  have : ⌊(2.5 : ℝ)⌋ = 2 := by rw [Int.floor_eq_iff]; norm_num
  rw [this]; norm_num

end Verif
