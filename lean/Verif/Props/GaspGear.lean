import Verif.Props.GaspLoads

/-!
# Mass of the landing gear of GASP: theorems (C124)
-/

namespace Verif.GaspLoads
open Real

/-! ## The KS function -/

theorem ksWith_eq {n : ℕ} (gm : ℝ) (v : Fin (n + 1) → ℝ) : ksWith gm v = 1 / 50 * log (∑ i, exp (50 * v i)) := by
  have e : ∀ i, exp (50 * (v i - gm)) = exp (-(50 * gm)) * exp (50 * v i) := fun i => by rw [← exp_add]; congr 1; ring
  have hp : 0 < ∑ i, exp (50 * v i) := Finset.sum_pos (fun _ _ => exp_pos _) Finset.univ_nonempty
  simp only [ksWith, e, ← Finset.mul_sum]
  rw [log_mul (exp_pos _).ne' hp.ne', log_exp]
  ring

theorem dksWith_eq {n : ℕ} (gm : ℝ) (v : Fin (n + 1) → ℝ) (i : Fin (n + 1)) :
    dksWith gm v i = exp (50 * v i) / ∑ j, exp (50 * v j) := by
  have e : ∀ i, exp (50 * (v i - gm)) = exp (-(50 * gm)) * exp (50 * v i) := fun i => by rw [← exp_add]; congr 1; ring
  have hp : 0 < ∑ i, exp (50 * v i) := Finset.sum_pos (fun _ _ => exp_pos _) Finset.univ_nonempty
  have := exp_pos (-(50 * gm))
  simp only [dksWith, e, ← Finset.mul_sum]
  field_simp

/-- The weights are positive and sum to one. -/
theorem dks_weights {n : ℕ} (g : Gear n) : (∀ i, 0 < g.dks i) ∧ ∑ i, g.dks i = 1 := by
  have hp : 0 < ∑ i, exp (50 * g.val i) := Finset.sum_pos (fun _ _ => exp_pos _) Finset.univ_nonempty
  simp only [Gear.dks, dksWith_eq]
  refine ⟨fun i => div_pos (exp_pos _) hp, ?_⟩
  rw [← Finset.sum_div, div_self hp.ne']

/-- The height is at least that required by every type of engine and exceeds the largest by at most `log n / 50`. -/
theorem h_bounds {n : ℕ} (g : Gear n) : (∀ i, g.val i ≤ g.h) ∧ g.h ≤ g.top + log (n + 1) / 50 := by
  have h1 : ∀ i, g.val i ≤ g.top := fun i => Finset.le_sup' g.val (Finset.mem_univ i)
  constructor
  · intro i
    rw [Gear.h, ksWith_eq]
    have : exp (50 * g.val i) ≤ ∑ j, exp (50 * g.val j) :=
      Finset.single_le_sum (f := fun j => exp (50 * g.val j)) (fun _ _ => (exp_pos _).le) (Finset.mem_univ i)
    have h2 := log_le_log (exp_pos _) this
    rw [log_exp] at h2
    linarith
  · rw [Gear.h, ksWith]
    have h2 : ∑ i, exp (50 * (g.val i - g.top)) ≤ n + 1 := by
      calc ∑ i, exp (50 * (g.val i - g.top)) ≤ ∑ _i : Fin (n + 1), (1 : ℝ) :=
            Finset.sum_le_sum fun i _ => exp_le_one_iff.2 (by have := h1 i; linarith)
        _ = n + 1 := by simp
    have h3 := log_le_log (Finset.sum_pos (fun i _ => exp_pos (50 * (g.val i - g.top))) Finset.univ_nonempty) h2
    linarith

/-- With one type of engine the height is the required one. -/
theorem h_single (g : Gear 0) : g.h = g.val 0 ∧ g.dks 0 = 1 := by
  constructor
  · rw [Gear.h, ksWith_eq]; simp
  · simp [Gear.dks, dksWith_eq]

theorem h_deriv {n : ℕ} {g : ℝ → Gear n} {v' : Fin (n + 1) → ℝ} {x : ℝ} (hv : ∀ i, HasDerivAt (fun t => (g t).val i) (v' i) x) :
    HasDerivAt (fun t => (g t).h) (∑ i, v' i * (g x).dks i) x := by
  have hp : 0 < ∑ i, exp (50 * (g x).val i) := Finset.sum_pos (fun _ _ => exp_pos _) Finset.univ_nonempty
  simp only [Gear.h, ksWith_eq]
  have h1 : HasDerivAt (fun t => ∑ i, exp (50 * (g t).val i)) (∑ i, exp (50 * (g x).val i) * (50 * v' i)) x :=
    HasDerivAt.fun_sum fun i _ => ((hv i).const_mul 50).exp
  refine ((h1.log hp.ne').const_mul (1 / 50)).congr_deriv ?_
  simp only [Gear.dks, dksWith_eq]
  rw [Finset.sum_div, Finset.mul_sum]
  refine Finset.sum_congr rfl fun i _ => ?_
  field_simp

/-! ## The limit of six feet -/

/-- Both sigmoids are computed. -/
theorem height_deriv {f : ℝ → ℝ} {f' x : ℝ} (hf : HasDerivAt f f' x) (h1 : 5 < f x) (h2 : f x < 7) :
    HasDerivAt (fun t => height (f t)) (f' * (sigX (f x) 6 (1 / 320) + (f x - 6) * dsigX (f x) 6 (1 / 320))) x := by
  have a : -320 < (f x - 6) / (1 / 320) := by rw [lt_div_iff₀ (by norm_num)]; linarith
  have b : (f x - 6) / (1 / 320) < 320 := by rw [div_lt_iff₀ (by norm_num)]; linarith
  have s1 := hasDerivAt_sigX hf (hasDerivAt_const x (6 : ℝ)) (mu := 1 / 320) (by norm_num) a.ne'
  have s2 := hasDerivAt_sigX hf (hasDerivAt_const x (6 : ℝ)) (mu := -(1 / 320)) (by norm_num)
    (by rw [div_neg]; intro e; linarith)
  rw [dsig_neg (by norm_num) a b] at s2
  have e : (-1 / 320 : ℝ) = -(1 / 320) := by norm_num
  simp only [height, e]
  refine ((hf.fun_mul s1).fun_add (s2.const_mul 6)).congr_deriv ?_
  ring

/-- Far above six feet the second sigmoid is cut off. -/
theorem height_deriv_high {f : ℝ → ℝ} {f' x : ℝ} (hf : HasDerivAt f f' x) (h1 : 7 < f x) :
    HasDerivAt (fun t => height (f t)) (f' * (sigX (f x) 6 (1 / 320) + f x * dsigX (f x) 6 (1 / 320))) x := by
  have a : -320 < (f x - 6) / (1 / 320) := by rw [lt_div_iff₀ (by norm_num)]; linarith
  have b : 320 < (f x - 6) / (1 / 320) := by rw [lt_div_iff₀ (by norm_num)]; linarith
  have s1 := hasDerivAt_sigX hf (hasDerivAt_const x (6 : ℝ)) (mu := 1 / 320) (by norm_num) a.ne'
  have s2 := hasDerivAt_sigX hf (hasDerivAt_const x (6 : ℝ)) (mu := -(1 / 320)) (by norm_num)
    (by rw [div_neg]; intro e; linarith)
  have z : dsigX (f x) 6 (-(1 / 320)) = 0 := by
    rw [dsigX, if_neg]; rw [div_neg]; intro e; linarith
  rw [z] at s2
  have e : (-1 / 320 : ℝ) = -(1 / 320) := by norm_num
  simp only [height, e]
  refine ((hf.fun_mul s1).fun_add (s2.const_mul 6)).congr_deriv ?_
  ring

/-- At six feet the limit is exact, and between 5 and 7 feet the height is a mean of both values. -/
theorem height_spec : height 6 = 6 ∧ ∀ h, 5 < h → h < 7 → ∃ θ, 0 ≤ θ ∧ θ ≤ 1 ∧ height h = θ * h + (1 - θ) * 6 := by
  have e : (-1 / 320 : ℝ) = -(1 / 320) := by norm_num
  refine ⟨by simp only [height, sig_one]; norm_num, fun h h1 h2 => ⟨sigX h 6 (1 / 320), ?_⟩⟩
  have a : -320 < (h - 6) / (1 / 320) := by rw [lt_div_iff₀ (by norm_num)]; linarith
  have b : (h - 6) / (1 / 320) < 320 := by rw [div_lt_iff₀ (by norm_num)]; linarith
  have h3 := sig_add (x := h) (x0 := 6) (mu := 1 / 320) (by norm_num) a b
  have p1 : 0 ≤ sigX h 6 (1 / 320) := by unfold sigX; split <;> positivity
  have p2 : 0 ≤ sigX h 6 (-(1 / 320)) := by unfold sigX; split <;> positivity
  refine ⟨p1, by linarith, ?_⟩
  rw [height, e, show sigX h 6 (-(1 / 320)) = 1 - sigX h 6 (1 / 320) by linarith]
  ring

/-! ## The entries -/

theorem mass_eq {n : ℕ} (g : Gear n) : g.mass = g.ck * g.c * g.touch * factor g.loc (height g.h) := by
  simp only [Gear.mass, grav]; norm_num; ring

/-- The entry by the scaler is the derivative. -/
theorem scaler_ok {n : ℕ} (g : Gear n) : HasDerivAt (fun t => ({ g with ck := t } : Gear n).mass) g.jS g.ck := by
  simp only [mass_eq]
  change HasDerivAt (fun t => t * g.c * g.touch * factor g.loc (height g.h)) _ _
  refine ((((hasDerivAt_id' g.ck).mul_const g.c).mul_const g.touch).mul_const _).congr_deriv ?_
  simp only [Gear.jS, grav]; norm_num; ring

/-- By mass coefficient and touchdown mass the derivative is the entry times the scaler. -/
theorem coefficient_scaled {n : ℕ} (g : Gear n) :
    HasDerivAt (fun t => ({ g with c := t } : Gear n).mass) (g.ck * g.jC) g.c ∧
      HasDerivAt (fun t => ({ g with touch := t } : Gear n).mass) (g.ck * g.jT) g.touch := by
  simp only [mass_eq]
  constructor
  · change HasDerivAt (fun t => g.ck * t * g.touch * factor g.loc (height g.h)) _ _
    refine ((((hasDerivAt_id' g.c).const_mul g.ck).mul_const g.touch).mul_const _).congr_deriv ?_
    simp only [Gear.jC, grav]; norm_num; ring
  · change HasDerivAt (fun t => g.ck * g.c * t * factor g.loc (height g.h)) _ _
    refine (((hasDerivAt_id' g.touch).const_mul (g.ck * g.c)).mul_const _).congr_deriv ?_
    simp only [Gear.jT]; ring

theorem factor_deriv {f : ℝ → ℝ} {f' x : ℝ} (loc : ℝ) (hf : HasDerivAt f f' x) :
    HasDerivAt (fun t => factor loc (f t)) (0.85 * (0.1765 * f' / 6) * sigX loc 0.005 (-0.01 / 320)) x :=
  ((((((hf.const_mul 0.1765).div_const 6).const_add 1).const_mul 0.85).mul_const _).add_const _)

theorem mass_height {n : ℕ} {g : ℝ → Gear n} {d x : ℝ} (hh : HasDerivAt (fun t => height (g t).h) d x)
    (h1 : ∀ t, (g t).ck = (g x).ck) (h2 : ∀ t, (g t).c = (g x).c) (h3 : ∀ t, (g t).touch = (g x).touch)
    (h4 : ∀ t, (g t).loc = (g x).loc) : HasDerivAt (fun t => (g t).mass) ((g x).ck * (g x).jH d) x := by
  have e : (fun t => (g t).mass) = fun t => (g x).ck * (g x).c * (g x).touch * factor (g x).loc (height (g t).h) := by
    funext t; rw [mass_eq, h1, h2, h3, h4]
  rw [e]
  refine ((factor_deriv _ hh).const_mul _).congr_deriv ?_
  simp only [Gear.jH, grav]; norm_num; ring

theorem sum_single {n : ℕ} (i : Fin (n + 1)) (a : ℝ) (w : Fin (n + 1) → ℝ) :
    ∑ j, (if j = i then a else 0) * w j = a * w i := by simp

/-- Changes the clearance ratio of one type of engine. -/
def Gear.setCR {n : ℕ} (g : Gear n) (i : Fin (n + 1)) (t : ℝ) : Gear n := { g with cr := Function.update g.cr i t }

/-- Changes the nacelle diameter of one type of engine. -/
def Gear.setND {n : ℕ} (g : Gear n) (i : Fin (n + 1)) (t : ℝ) : Gear n := { g with nd := Function.update g.nd i t }

theorem setCR_self {n : ℕ} (g : Gear n) (i : Fin (n + 1)) : g.setCR i (g.cr i) = g := by simp [Gear.setCR]
theorem setND_self {n : ℕ} (g : Gear n) (i : Fin (n + 1)) : g.setND i (g.nd i) = g := by simp [Gear.setND]

theorem hCR_deriv {n : ℕ} (g : Gear n) (i : Fin (n + 1)) :
    HasDerivAt (fun t => (g.setCR i t).h) (g.nd i * g.dks i) (g.cr i) := by
  have hv : ∀ j, HasDerivAt (fun t => (g.setCR i t).val j) (if j = i then g.nd i else 0) (g.cr i) := by
    intro j
    by_cases hj : j = i
    · subst hj
      simp only [Gear.val, Gear.setCR, Function.update_self, if_true]
      exact (((hasDerivAt_id' (g.cr j)).const_add 1).mul_const (g.nd j)).congr_deriv (by ring)
    · simp only [Gear.val, Gear.setCR, Function.update_of_ne hj, if_neg hj]
      exact hasDerivAt_const _ _
  refine (h_deriv hv).congr_deriv ?_
  rw [sum_single, setCR_self]

theorem hND_deriv {n : ℕ} (g : Gear n) (i : Fin (n + 1)) :
    HasDerivAt (fun t => (g.setND i t).h) ((1 + g.cr i) * g.dks i) (g.nd i) := by
  have hv : ∀ j, HasDerivAt (fun t => (g.setND i t).val j) (if j = i then 1 + g.cr i else 0) (g.nd i) := by
    intro j
    by_cases hj : j = i
    · subst hj
      simp only [Gear.val, Gear.setND, Function.update_self, if_true]
      exact ((hasDerivAt_id' (g.nd j)).const_mul (1 + g.cr j)).congr_deriv (by ring)
    · simp only [Gear.val, Gear.setND, Function.update_of_ne hj, if_neg hj]
      exact hasDerivAt_const _ _
  refine (h_deriv hv).congr_deriv ?_
  rw [sum_single, setND_self]

/-- By the clearance ratio of each type of engine the derivative is the entry times the scaler. -/
theorem clearance_scaled {n : ℕ} (g : Gear n) (i : Fin (n + 1)) (h1 : 5 < g.h) (h2 : g.h < 7) :
    HasDerivAt (fun t => (g.setCR i t).mass) (g.ck * g.jH (g.dghCR i)) (g.cr i) := by
  have e := setCR_self g i
  have := mass_height (height_deriv (hCR_deriv g i) (by rw [e]; exact h1) (by rw [e]; exact h2)) (fun _ => rfl) (fun _ => rfl)
    (fun _ => rfl) (fun _ => rfl)
  refine this.congr_deriv ?_
  rw [e, Gear.dghCR]
  congr 2
  ring

theorem dsig_small {h : ℝ} (h1 : 7 < h) : 0 < dsigX h 6 (1 / 320) ∧ dsigX h 6 (1 / 320) ≤ 320 * exp (-320) := by
  have a : -320 < (h - 6) / (1 / 320) := by rw [lt_div_iff₀ (by norm_num)]; linarith
  refine ⟨dsig_pos (by norm_num) a, ?_⟩
  simp only [dsigX, gt_iff_lt, if_pos a]
  have e : -(h - 6) / (1 / 320) ≤ -320 := by rw [div_le_iff₀ (by norm_num)]; linarith
  have h3 := exp_le_exp.2 e
  have h4 := exp_pos (-(h - 6) / (1 / 320))
  generalize exp (-(h - 6) / (1 / 320)) = q at *
  rw [div_le_iff₀ (by positivity)]
  have h5 : 1 ≤ (1 + q) * (1 + q) := by nlinarith
  have h6 : 0 < exp (-320) := exp_pos _
  nlinarith [mul_le_mul_of_nonneg_left h5 h6.le]

/-- Above seven feet the derivative by the clearance ratio and the entry times the scaler differ by less than
`exp (-320)` times a bound. -/
theorem clearance_high {n : ℕ} (g : Gear n) (i : Fin (n + 1)) (h1 : 7 < g.h) :
    ∃ D, HasDerivAt (fun t => (g.setCR i t).mass) D (g.cr i) ∧
      |D - g.ck * g.jH (g.dghCR i)| ≤ |g.ck * g.c * g.touch * g.nd i| * (0.85 * 0.1765 * 320) * exp (-320) := by
  have e := setCR_self g i
  have := mass_height (height_deriv_high (hCR_deriv g i) (by rw [e]; exact h1)) (fun _ => rfl) (fun _ => rfl)
    (fun _ => rfl) (fun _ => rfl)
  refine ⟨_, this, ?_⟩
  rw [e]
  obtain ⟨hw, hsum⟩ := dks_weights g
  have hd1 : g.dks i ≤ 1 := by
    rw [← hsum]; exact Finset.single_le_sum (fun j _ => (hw j).le) (Finset.mem_univ i)
  obtain ⟨s0, s1⟩ := dsig_small h1
  have r0 : 0 ≤ sigX g.loc 0.005 (-0.01 / 320) := by unfold sigX; split <;> positivity
  have r1 : sigX g.loc 0.005 (-0.01 / 320) ≤ 1 := by
    unfold sigX
    split
    · rw [div_le_one (by positivity)]; linarith [exp_pos (-(g.loc - 0.005) / (-0.01 / 320))]
    · norm_num
  have key : g.ck * g.jH (g.nd i * g.dks i * (sigX g.h 6 (1 / 320) + g.h * dsigX g.h 6 (1 / 320))) - g.ck * g.jH (g.dghCR i) =
      g.ck * g.c * g.touch * g.nd i * (0.85 * 0.1765 * (dsigX g.h 6 (1 / 320) * (g.dks i * sigX g.loc 0.005 (-0.01 / 320)))) := by
    simp only [Gear.jH, Gear.dghCR, grav]; norm_num; ring
  have hw0 := (hw i).le
  rw [key, abs_mul, mul_assoc |g.ck * g.c * g.touch * g.nd i|]
  refine mul_le_mul_of_nonneg_left ?_ (abs_nonneg _)
  rw [abs_of_nonneg (by positivity)]
  have h3 : g.dks i * sigX g.loc 0.005 (-0.01 / 320) ≤ 1 := mul_le_one₀ hd1 r0 r1
  have h4 : dsigX g.h 6 (1 / 320) * (g.dks i * sigX g.loc 0.005 (-0.01 / 320)) ≤ dsigX g.h 6 (1 / 320) :=
    mul_le_of_le_one_right s0.le h3
  linarith

/-- By the mass coefficient and the touchdown mass the entries are wrong whenever the scaler is not 1. -/
theorem scaler_violated {n : ℕ} (g : Gear n) (hk : g.ck ≠ 1) (hc : g.jC ≠ 0) (ht : g.jT ≠ 0) :
    ¬ HasDerivAt (fun t => ({ g with c := t } : Gear n).mass) g.jC g.c ∧
      ¬ HasDerivAt (fun t => ({ g with touch := t } : Gear n).mass) g.jT g.touch := by
  constructor <;> intro h
  · have := h.unique (coefficient_scaled g).1
    exact hk (mul_right_cancel₀ hc (by rw [one_mul]; exact this.symm))
  · have := h.unique (coefficient_scaled g).2
    exact hk (mul_right_cancel₀ ht (by rw [one_mul]; exact this.symm))

/-- The factor is positive for positive heights, so the previous theorem applies. -/
theorem factor_pos (loc gh : ℝ) (h1 : -0.005 < loc) (hg : 0 ≤ gh) : 0 < factor loc gh := by
  have a : -320 < (loc - 0.005) / (0.01 / 320) := by rw [lt_div_iff₀ (by norm_num)]; linarith
  have p1 : 0 < sigX loc 0.005 (0.01 / 320) := by simp only [sigX, gt_iff_lt, if_pos a]; positivity
  have p2 : 0 ≤ sigX loc 0.005 (-0.01 / 320) := by unfold sigX; split <;> positivity
  unfold factor
  have : 0 ≤ 0.85 * (1 + 0.1765 * gh / 6) * sigX loc 0.005 (-0.01 / 320) := by positivity
  linarith

/-- Even with scaler 1 the entry by the nacelle diameter is wrong near six feet: the last term has the wrong sign and
lacks the weight. -/
theorem diameter_violated {n : ℕ} (g : Gear n) (i : Fin (n + 1)) (h1 : 5 < g.h) (h2 : g.h < 7) (hk : g.ck = 1)
    (hc : g.c ≠ 0) (ht : g.touch ≠ 0) (hl : g.loc < 0.015) (hr : 0 < 1 + g.cr i) :
    ¬ HasDerivAt (fun t => (g.setND i t).mass) (g.jH (g.dghND i)) (g.nd i) := by
  intro h
  have e := setND_self g i
  have h3 := mass_height (height_deriv (hND_deriv g i) (by rw [e]; exact h1) (by rw [e]; exact h2)) (fun _ => rfl) (fun _ => rfl)
    (fun _ => rfl) (fun _ => rfl)
  have h4 := h.unique h3
  rw [e, hk, one_mul] at h4
  have a : -320 < (g.h - 6) / (1 / 320) := by rw [lt_div_iff₀ (by norm_num)]; linarith
  have s0 := dsig_pos (x := g.h) (x0 := 6) (mu := 1 / 320) (by norm_num) a
  have b : -320 < (g.loc - 0.005) / (-0.01 / 320) := by rw [lt_div_iff_of_neg (by norm_num)]; linarith
  have r0 : 0 < sigX g.loc 0.005 (-0.01 / 320) := by simp only [sigX, gt_iff_lt, if_pos b]; positivity
  have hw := (dks_weights g).1 i
  have e2 : g.jH (g.dghND i) - g.jH ((1 + g.cr i) * g.dks i * (sigX g.h 6 (1 / 320) + (g.h - 6) * dsigX g.h 6 (1 / 320))) =
      g.c * g.touch * (0.85 * 0.1765 * (dsigX g.h 6 (1 / 320) * ((1 + g.cr i) * ((1 + g.dks i) * sigX g.loc 0.005 (-0.01 / 320))))) := by
    simp only [Gear.jH, Gear.dghND, grav]; norm_num; ring
  rw [h4, sub_self] at e2
  have h5 : g.c * g.touch * (0.85 * 0.1765 * (dsigX g.h 6 (1 / 320) * ((1 + g.cr i) * ((1 + g.dks i) * sigX g.loc 0.005 (-0.01 / 320))))) ≠ 0 := by
    positivity
  exact h5 e2.symm

/-- What the entry by the diameter should be, with the same scaler. -/
theorem diameter_partial {n : ℕ} (g : Gear n) (i : Fin (n + 1)) (h1 : 5 < g.h) (h2 : g.h < 7) :
    HasDerivAt (fun t => (g.setND i t).mass)
      (g.ck * (g.jH (g.dghND i) - g.jH (6 * dsigX g.h 6 (1 / 320) * (1 + g.cr i) * (1 + g.dks i)))) (g.nd i) := by
  have e := setND_self g i
  have h3 := mass_height (height_deriv (hND_deriv g i) (by rw [e]; exact h1) (by rw [e]; exact h2)) (fun _ => rfl) (fun _ => rfl)
    (fun _ => rfl) (fun _ => rfl)
  refine h3.congr_deriv ?_
  rw [e]
  simp only [Gear.jH, Gear.dghND]
  ring

/-- The mass depends on the position of the wing, for which no partial is declared. -/
theorem location_violated {n : ℕ} (g : Gear n) (h1 : -0.005 < g.loc) (h2 : g.loc < 0.015) (hk : g.ck ≠ 0) (hc : g.c ≠ 0)
    (ht : g.touch ≠ 0) (hf : 0.85 * (1 + 0.1765 * height g.h / 6) ≠ 1) :
    ¬ HasDerivAt (fun t => ({ g with loc := t } : Gear n).mass) 0 g.loc := by
  intro h
  have a : -320 < (g.loc - 0.005) / (0.01 / 320) := by rw [lt_div_iff₀ (by norm_num)]; linarith
  have b : (g.loc - 0.005) / (0.01 / 320) < 320 := by rw [div_lt_iff₀ (by norm_num)]; linarith
  have s1 := hasDerivAt_sigX (hasDerivAt_id' g.loc) (hasDerivAt_const g.loc (0.005 : ℝ)) (mu := 0.01 / 320) (by norm_num) a.ne'
  have s2 := hasDerivAt_sigX (hasDerivAt_id' g.loc) (hasDerivAt_const g.loc (0.005 : ℝ)) (mu := -(0.01 / 320)) (by norm_num)
    (by rw [div_neg]; intro e; linarith)
  rw [dsig_neg (by norm_num) a b] at s2
  have e : (-0.01 / 320 : ℝ) = -(0.01 / 320) := by norm_num
  have s0 := dsig_pos (x := g.loc) (x0 := 0.005) (mu := 0.01 / 320) (by norm_num) a
  have h3 : HasDerivAt (fun t => ({ g with loc := t } : Gear n).mass)
      (g.ck * g.c * g.touch * (dsigX g.loc 0.005 (0.01 / 320) * (1 - 0.85 * (1 + 0.1765 * height g.h / 6)))) g.loc := by
    simp only [mass_eq, factor, e]
    change HasDerivAt (fun t => g.ck * g.c * g.touch * (0.85 * (1 + 0.1765 * height g.h / 6) * sigX t 0.005 (-(0.01 / 320)) +
      sigX t 0.005 (0.01 / 320))) _ _
    refine (((s2.const_mul _).fun_add s1).const_mul _).congr_deriv ?_
    ring
  have h4 := h.unique h3
  have h5 : 1 - 0.85 * (1 + 0.1765 * height g.h / 6) ≠ 0 := sub_ne_zero.2 hf.symm
  have h6 : g.ck * g.c * g.touch * (dsigX g.loc 0.005 (0.01 / 320) * (1 - 0.85 * (1 + 0.1765 * height g.h / 6))) ≠ 0 := by positivity
  exact h6 h4.symm

/-- A low wing with one type of engine of diameter 5 and clearance ratio 0.2 meets the hypotheses. -/
example : let g : Gear 0 := ⟨0, 0.04, 100000, fun _ => 0.2, fun _ => 5, 1⟩
    5 < g.h ∧ g.h < 7 ∧ 0 < 1 + g.cr 0 ∧ 0.85 * (1 + 0.1765 * height g.h / 6) ≠ 1 := by
  intro g
  have e : g.h = 6 := by rw [(h_single g).1]; norm_num [Gear.val, g]
  rw [e, height_spec.1]
  norm_num [g]

end Verif.GaspLoads
