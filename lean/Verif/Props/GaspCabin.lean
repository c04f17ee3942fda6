import Verif.Model.GaspCabin
import Mathlib.Tactic.Linarith
import Mathlib.Tactic.Positivity

/-! # Cabin masses of the GASP mass subsystem: which inputs are accepted, partials, smoothing -/

namespace Verif.Cabin
open Real

theorem attendants_mono {p q : ℕ} (h : p ≤ q) : attendants p ≤ attendants q := by
  unfold attendants; split_ifs <;> omega

theorem lavatories_mono {p q : ℕ} (h : p ≤ q) : lavatories p ≤ lavatories q := by
  unfold lavatories; split_ifs <;> omega

theorem pilots_mono {p q : ℕ} (jet : Bool) (h : p ≤ q) : pilots p jet ≤ pilots q jet := by
  unfold pilots; split_ifs <;> first | omega | (exfalso; simp_all; omega)

/-- One pilot for up to nine passengers (five in a jet), three from 351 on. -/
theorem pilots_iff (p : ℕ) (jet : Bool) : (pilots p jet = 1 ↔ p ≤ 5 ∨ (p ≤ 9 ∧ jet = false)) ∧
    (pilots p jet = 3 ↔ 351 ≤ p) ∧ 1 ≤ pilots p jet ∧ pilots p jet ≤ 3 := by
  cases jet <;> simp only [pilots] <;> split_ifs <;> simp_all <;> omega

/-- One attendant for each started group of fifty passengers from 20 on, up to six; the first lavatory from 26 on. -/
theorem attendants_iff (p : ℕ) : (∀ k, k < 6 → (k < attendants p ↔ (if k = 0 then 20 ≤ p else 50 * k < p))) ∧
    (∀ k, k < 6 → (k < lavatories p ↔ (if k = 0 then 26 ≤ p else 50 * k < p))) := by
  constructor <;> intro k hk <;> simp only [attendants, lavatories] <;> interval_cases k <;>
    simp only [if_true, one_ne_zero, OfNat.ofNat_ne_zero, if_false] <;> split_ifs <;> omega

/-- From 26 passengers on there are as many lavatories as flight attendants. -/
theorem lavatories_eq_attendants {p : ℕ} (h : 26 ≤ p) : lavatories p = attendants p := by
  unfold lavatories attendants; split_ifs <;> omega

/-- Flight attendants: one for each 50 passengers begun, at most six, none below twenty. -/
theorem attendants_rule (p : ℕ) : attendants p = if p < 20 then 0 else min ((p + 49) / 50) 6 := by
  unfold attendants; split_ifs <;> omega

/-! ## Furnishings, not smooth -/

/-- The mass is computed except for small cabins between the two widths. -/
theorem hard_ok_iff (o : Opts) (g len w k a : ℝ) :
    (∃ m, hard o g len w k a = .ok m) ↔ ¬ (10000 < g ∧ o.pax < 50 ∧ 5.667 < w ∧ w ≤ 8.9) := by
  unfold hard hardRaw perPax
  by_cases h1 : g ≤ 10000
  · simp [h1, bind, Except.bind, pure, Except.pure, not_lt.2 h1]
  · by_cases h2 : 50 ≤ o.pax
    · simp [h1, h2, bind, Except.bind, pure, Except.pure, not_lt.2 h2]
    · by_cases h3 : w ≤ 5.667
      · simp [h1, h2, h3, bind, Except.bind, pure, Except.pure, not_lt.2 h3]
      · by_cases h4 : 8.9 < w
        · simp [h1, h2, h3, h4, bind, Except.bind, pure, Except.pure, not_le.2 h4]
        · simp [h1, h2, h3, h4, bind, Except.bind, pure, Except.pure, not_le.1 h1, not_le.1 h2, not_le.1 h3, not_lt.1 h4]

/-- Every cabin has a mass: fails for 40 passengers in a cabin of 8 ft. -/
theorem hard_total_violated :
    ¬ ∀ (o : Opts) (g len w k a : ℝ), 0 < g → 0 < len → 0 < w → 0 < k → 0 < a → ∃ m, hard o g len w k a = .ok m := by
  intro h
  have := (hard_ok_iff ⟨40, true, true⟩ 20000 50 8 10 300).1
    (h ⟨40, true, true⟩ 20000 50 8 10 300 (by norm_num) (by norm_num) (by norm_num) (by norm_num) (by norm_num))
  exact this ⟨by norm_num, by norm_num, by norm_num, by norm_num⟩

/-- The mass is at least 30. -/
theorem hard_min (o : Opts) (g len w k a m : ℝ) (h : hard o g len w k a = .ok m) : 30 ≤ m := by
  unfold hard at h
  cases hr : hardRaw o g len w k a with
  | error e => simp [hr, bind, Except.bind] at h
  | ok r =>
    simp only [hr, bind, Except.bind, pure, Except.pure, Except.ok.injEq] at h
    rw [← h]; exact le_max_right _ _

/-- `compute_partials` accepts the same inputs as `compute`. -/
theorem hardGrad_ok_iff (o : Opts) (g len w k a : ℝ) :
    (∃ d, hardGrad o g len w k a = .ok d) ↔ ∃ m, hard o g len w k a = .ok m := by
  unfold hardGrad hard hardRaw perPax dPerPax
  by_cases h1 : g ≤ 10000
  · simp [h1, bind, Except.bind, pure, Except.pure]
  · by_cases h2 : 50 ≤ o.pax
    · simp [h1, h2, bind, Except.bind, pure, Except.pure]
    · by_cases h3 : w ≤ 5.667
      · simp [h1, h2, h3, bind, Except.bind, pure, Except.pure]
      · by_cases h4 : 8.9 < w <;> simp [h1, h2, h3, h4, bind, Except.bind, pure, Except.pure]

/-- The mass as a total function. -/
noncomputable def hardT (o : Opts) (g len w k a : ℝ) : ℝ := match hard o g len w k a with
  | .ok m => m
  | .error _ => 0

theorem hardT_light (o : Opts) {g : ℝ} (len w k a : ℝ) (hg : g ≤ 10000) :
    hardT o g len w k a = max (0.065 * g - 59) 30 := by
  simp [hardT, hard, hardRaw, hg, bind, Except.bind, pure, Except.pure]

theorem hardT_large (o : Opts) {g : ℝ} (len w k a : ℝ) (hg : 10000 < g) (hp : 50 ≤ o.pax) :
    hardT o g len w k a = max (large o len w k a) 30 := by
  simp [hardT, hard, hardRaw, not_le.2 hg, hp, bind, Except.bind, pure, Except.pure]

/-- Large cabin, above the lower bound: all five partials are the derivatives. -/
theorem large_partials (o : Opts) (g len w k a : ℝ) (d : Grad) (hg : 10000 < g) (hp : 50 ≤ o.pax)
    (hm : 30 < large o len w k a) (h : hardGrad o g len w k a = .ok d) :
    HasDerivAt (fun t => hardT o g len t k a) d.w w ∧ HasDerivAt (fun t => hardT o t len w k a) d.g g ∧
    HasDerivAt (fun t => hardT o g t w k a) d.len len ∧ HasDerivAt (fun t => hardT o g len w t a) d.k k ∧
    HasDerivAt (fun t => hardT o g len w k t) d.a a := by
  have hd : d = ⟨pilots o.pax o.jet * (1 / 12) * 90 + 1.5 * 0.75 * len * π / 2, 0, 1.5 * 0.75 * w * π / 2,
        if o.empirical then o.pax else 0, 0.5⟩ := by
    simp [hardGrad, hardRaw, not_le.2 hg, hp, bind, Except.bind, pure, Except.pure, not_lt.2 hm.le] at h
    rw [← h]; simp
  subst hd
  have key : ∀ (f : ℝ → ℝ) (s x : ℝ), HasDerivAt f s x → 30 < f x → HasDerivAt (fun t => max (f t) 30) s x := by
    intro f s x hf hx
    refine hf.congr_of_eventuallyEq ?_
    filter_upwards [hf.continuousAt.eventually (lt_mem_nhds hx)] with t ht using max_eq_left ht.le
  refine ⟨?_, ?_, ?_, ?_, ?_⟩
  · simp only [hardT_large o _ _ _ _ hg hp]
    refine key _ _ _ ?_ hm
    unfold large
    have h1 := ((((hasDerivAt_id w).div_const 12).const_add 1).const_mul (pilots o.pax o.jet : ℝ)).mul_const 90
    have h2 := (((hasDerivAt_id w).const_mul (1.5 * (0.75 * len))).mul_const π).div_const 2
    have := (((((h1.const_add (if o.empirical then k * o.pax else 118.4 * o.pax - 4190)).add_const
      (attendants o.pax * 30 : ℝ)).add_const (lavatories o.pax * 240 : ℝ)).add_const (0.5 * o.pax * 12 : ℝ)).add h2).add_const
      (0.5 * a)
    refine this.congr_deriv ?_
    ring
  · have : HasDerivAt (fun _ : ℝ => max (large o len w k a) 30) 0 g := hasDerivAt_const _ _
    refine this.congr_of_eventuallyEq ?_
    filter_upwards [lt_mem_nhds hg] with t ht using hardT_large o _ _ _ _ ht hp
  · simp only [hardT_large o _ _ _ _ hg hp]
    refine key _ _ _ ?_ hm
    unfold large
    have h2 := (((((hasDerivAt_id len).const_mul 0.75).const_mul 1.5).mul_const w).mul_const π).div_const 2
    have := (h2.const_add ((if o.empirical then k * o.pax else 118.4 * o.pax - 4190) +
      pilots o.pax o.jet * (1 + w / 12) * 90 + attendants o.pax * 30 + lavatories o.pax * 240 + 0.5 * o.pax * 12)).add_const
      (0.5 * a)
    refine this.congr_deriv ?_
    ring
  · simp only [hardT_large o _ _ _ _ hg hp]
    refine key _ _ _ ?_ hm
    unfold large
    have h1 : HasDerivAt (fun t : ℝ => if o.empirical then t * o.pax else 118.4 * o.pax - 4190)
        (if o.empirical then (o.pax : ℝ) else 0) k := by
      cases o.empirical
      · simpa using hasDerivAt_const k _
      · simpa using (hasDerivAt_id k).mul_const (o.pax : ℝ)
    exact (((((h1.add_const _).add_const _).add_const _).add_const _).add_const _).add_const _
  · simp only [hardT_large o _ _ _ _ hg hp]
    refine key _ _ _ ?_ hm
    unfold large
    have := ((hasDerivAt_id a).const_mul 0.5).const_add ((if o.empirical then k * o.pax else 118.4 * o.pax - 4190) +
      pilots o.pax o.jet * (1 + w / 12) * 90 + attendants o.pax * 30 + lavatories o.pax * 240 + 0.5 * o.pax * 12
      + 1.5 * (0.75 * len) * w * π / 2)
    refine this.congr_deriv ?_
    ring

example : (10000 : ℝ) < 150000 ∧ 50 ≤ (⟨180, true, true⟩ : Opts).pax ∧ (30 : ℝ) < large ⟨180, true, true⟩ 120 13 40 1000 := by
  refine ⟨by norm_num, by norm_num, ?_⟩
  unfold large
  have := pi_pos
  simp only [pilots, attendants, lavatories]
  norm_num
  nlinarith

/-- Light aircraft: the mass partial is the derivative above the lower bound. -/
theorem light_partials (o : Opts) (g len w k a : ℝ) (d : Grad) (hg : g < 10000) (hm : 30 < 0.065 * g - 59)
    (h : hardGrad o g len w k a = .ok d) : HasDerivAt (fun t => hardT o t len w k a) d.g g ∧ d.w = 0 ∧ d.len = 0 ∧ d.k = 0 ∧ d.a = 0 := by
  have hd : d = ⟨0, 0.065, 0, 0, 0⟩ := by
    simp [hardGrad, hardRaw, hg.le, bind, Except.bind, pure, Except.pure, not_lt.2 hm.le] at h
    rw [← h]
  subst hd
  refine ⟨?_, rfl, rfl, rfl, rfl⟩
  have : HasDerivAt (fun t : ℝ => 0.065 * t - 59) 0.065 g := by
    simpa using ((hasDerivAt_id g).const_mul 0.065).sub_const 59
  refine this.congr_of_eventuallyEq ?_
  have h2 : (30 + 59) / 0.065 < g := by rw [div_lt_iff₀ (by norm_num)]; linarith
  filter_upwards [Ioo_mem_nhds h2 hg] with t ht
  rw [hardT_light o _ _ _ _ ht.2.le, max_eq_left]
  have := (div_lt_iff₀ (by norm_num : (0 : ℝ) < 0.065)).1 ht.1
  linarith

/-! ## Furnishings, smooth -/

/-- What a blend of the two masses would be. -/
noncomputable def blend (o : Opts) (g len w k a : ℝ) : ℝ :=
  (1 - sigX g 10000 0.01) * wt1 g + sigX g 10000 0.01 * wt2 o len w k a

/-- The smoothed mass exceeds the blend by the part of the heavy aircraft mass that should have been faded out. -/
theorem softRaw_error (o : Opts) (g len w k a : ℝ) :
    softRaw o g len w k a = blend o g len w k a + (1 - sigX g 10000 0.01) * wt2 o len w k a := by
  simp only [softRaw, blend]; ring

theorem sigX_half {g : ℝ} (h : g < 10000) : 0 ≤ sigX g 10000 0.01 ∧ sigX g 10000 0.01 < 1 / 2 := by
  have hneg : (g - 10000) / 0.01 < 0 := div_neg_of_neg_of_pos (by linarith) (by norm_num)
  unfold sigX
  split_ifs
  · have : 1 < exp (-(g - 10000) / 0.01) := by
      rw [one_lt_exp_iff, neg_div]; linarith
    refine ⟨by positivity, ?_⟩
    rw [div_lt_div_iff₀ (by positivity) (by norm_num)]
    linarith
  · norm_num

/-- Smooth and hard masses disagree for every light aircraft: the smoothed one is too heavy by more than half of the
heavy aircraft mass. -/
theorem soft_blend_violated (o : Opts) (g len w k a : ℝ) (hg : g < 10000) (h2 : 0 < wt2 o len w k a) :
    blend o g len w k a + 1 / 2 * wt2 o len w k a < softRaw o g len w k a := by
  rw [softRaw_error]
  have := (sigX_half hg).2
  nlinarith

/-- The partials of the smooth branch are those of the blend, so they are not the derivatives of the smoothed mass. -/
theorem soft_partials_violated (o : Opts) (g len w k a : ℝ) (hg : g < 10000) (hp : 50 ≤ o.pax) :
    ¬ HasDerivAt (fun t => softRaw o g len w k t) (softGradArea o g) a := by
  intro h
  have e : HasDerivAt (fun t => softRaw o g len w k t) 0.5 a := by
    unfold softRaw wt2 large
    simp only [hp, if_true]
    have := ((((hasDerivAt_id a).const_mul 0.5).const_add
      ((if o.empirical then k * o.pax else 118.4 * o.pax - 4190) + pilots o.pax o.jet * (1 + w / 12) * 90
    + attendants o.pax * 30 + lavatories o.pax * 240 + 0.5 * o.pax * 12 + 1.5 * (0.75 * len) * w * π / 2)).const_mul 1).const_add
      ((1 - sigX g 10000 0.01) * wt1 g)
    refine this.congr_deriv ?_
    ring
  have u := h.unique e
  have s := (sigX_half hg).2
  simp only [softGradArea, hp, if_true] at u
  linarith

theorem blend_partials (o : Opts) (g len w k a : ℝ) (hp : 50 ≤ o.pax) :
    HasDerivAt (fun t => blend o g len w k t) (softGradArea o g) a ∧
    HasDerivAt (fun t => blend o g t w k a) (softGradLen o g w) len := by
  unfold blend wt2 large softGradArea softGradLen
  simp only [hp, if_true]
  constructor
  · have := ((((hasDerivAt_id a).const_mul 0.5).const_add
      ((if o.empirical then k * o.pax else 118.4 * o.pax - 4190) + pilots o.pax o.jet * (1 + w / 12) * 90
    + attendants o.pax * 30 + lavatories o.pax * 240 + 0.5 * o.pax * 12 + 1.5 * (0.75 * len) * w * π / 2)).const_mul
      (sigX g 10000 0.01)).const_add ((1 - sigX g 10000 0.01) * wt1 g)
    refine this.congr_deriv ?_
    ring
  · have h2 := (((((hasDerivAt_id len).const_mul 0.75).const_mul 1.5).mul_const w).mul_const π).div_const 2
    have := (((h2.const_add ((if o.empirical then k * o.pax else 118.4 * o.pax - 4190) +
      pilots o.pax o.jet * (1 + w / 12) * 90 + attendants o.pax * 30 + lavatories o.pax * 240 + 0.5 * o.pax * 12)).add_const
      (0.5 * a)).const_mul (sigX g 10000 0.01)).const_add ((1 - sigX g 10000 0.01) * wt1 g)
    refine this.congr_deriv ?_
    ring

/-! ## Oxygen -/

/-- The partial is available except for light aircraft with few passengers, where the mass is available. -/
theorem oxygenGrad_ok_iff (pax : ℕ) (g : ℝ) : (∃ d, oxygenGrad pax g = .ok d) ↔ ¬ (pax < 9 ∧ g ≤ 3000) := by
  unfold oxygenGrad
  by_cases h1 : pax < 9
  · by_cases h2 : 3000 < g
    · simp [h1, h2]
    · simp [h1, h2, not_lt.1 h2]
  · simp [h1]

theorem oxygenGrad_total_violated : ¬ ∀ (pax : ℕ) (g : ℝ), 0 < g → ∃ d, oxygenGrad pax g = .ok d := by
  intro h
  exact (oxygenGrad_ok_iff 4 2000).1 (h 4 2000 (by norm_num)) ⟨by norm_num, by norm_num⟩

/-- Where it is available it is the derivative. -/
theorem oxygenGrad_partial (pax : ℕ) (g d : ℝ) (h : oxygenGrad pax g = .ok d) : HasDerivAt (oxygen pax) d g := by
  unfold oxygenGrad at h
  split_ifs at h with h1 h2
  · cases h
    have : HasDerivAt (fun _ : ℝ => (3 : ℝ)) 0 g := hasDerivAt_const _ _
    refine this.congr_of_eventuallyEq ?_
    filter_upwards [lt_mem_nhds h2] with t ht
    simp [oxygen, h1, ht]
  · cases h
    have : oxygen pax = fun _ => oxygen pax 0 := by
      funext t; simp [oxygen, h1]
    rw [this]; exact hasDerivAt_const _ _

/-- More passengers never need less oxygen, nor does a heavier aircraft. -/
theorem oxygen_mono {p q : ℕ} {g g' : ℝ} (h : p ≤ q) (hg : g ≤ g') : oxygen p g ≤ oxygen q g' := by
  unfold oxygen
  split_ifs <;> first | omega | (exfalso; linarith) | norm_num

/-! ## Passenger service -/

/-- The entry for the service mass per passenger is the derivative for more than 19 passengers and up to 9. -/
theorem service_partials_partial (pax : ℕ) (s wa c : ℝ) (h : 19 < pax ∨ pax ≤ 9) :
    HasDerivAt (fun t => service pax t wa c) (serviceGrad pax) s := by
  unfold service serviceGrad
  rcases h with h | h
  · have h9 : 9 < pax := by omega
    simp only [h, h9, if_true]
    have := (((((hasDerivAt_id s).mul_const (pax : ℝ)).add_const (16 * (lavatories pax : ℝ))).add_const
      (wa * pax))).add_const (c * pax)
    refine this.congr_deriv ?_
    ring
  · have h9 : ¬ 9 < pax := by omega
    have h19 : ¬ 19 < pax := by omega
    simp only [h19, h9, if_false]
    exact hasDerivAt_const _ _

/-- For 10 to 19 passengers it is zero although the derivative is the number of passengers. -/
theorem service_partials_violated (pax : ℕ) (s wa c : ℝ) (h : 9 < pax) (h' : pax ≤ 19) :
    ¬ HasDerivAt (fun t => service pax t wa c) (serviceGrad pax) s := by
  intro hd
  have e : HasDerivAt (fun t => service pax t wa c) pax s := by
    unfold service
    simp only [h, not_lt.2 h', if_true, if_false]
    have := ((((hasDerivAt_id s).mul_const (pax : ℝ)).add_const (16 * (lavatories pax : ℝ))).add_const
      (0 : ℝ)).add_const (0 : ℝ)
    refine this.congr_deriv ?_
    ring
  have u := hd.unique e
  simp only [serviceGrad, not_lt.2 h', if_false] at u
  have : (pax : ℝ) = 0 := u.symm
  rw [Nat.cast_eq_zero] at this
  omega

example : 9 < 15 ∧ 15 ≤ 19 := by norm_num

/-- Water and catering partials are right for any number of passengers. -/
theorem service_water_catering (pax : ℕ) (s wa c : ℝ) :
    HasDerivAt (fun t => service pax s t c) (serviceGrad pax) wa ∧
    HasDerivAt (fun t => service pax s wa t) (serviceGrad pax) c := by
  unfold service serviceGrad
  by_cases h : 19 < pax
  · simp only [h, if_true]
    constructor
    · have := (((hasDerivAt_id wa).mul_const (pax : ℝ)).const_add
        (if 9 < pax then s * pax + 16 * (lavatories pax : ℝ) else 0)).add_const (c * pax)
      refine this.congr_deriv ?_
      ring
    · have := ((hasDerivAt_id c).mul_const (pax : ℝ)).const_add
        ((if 9 < pax then s * pax + 16 * (lavatories pax : ℝ) else 0) + wa * pax)
      refine this.congr_deriv ?_
      ring
  · simp only [h, if_false]
    exact ⟨hasDerivAt_const _ _, hasDerivAt_const _ _⟩

end Verif.Cabin
