import Verif.Model.EngineTypes
import Mathlib.Tactic.LinearCombination
import Mathlib.Tactic.NormNum
import Mathlib.Analysis.Real.Pi.Bounds

/-! # FLOPS components with one entry per engine type -/

namespace Verif.EngineTypes
open Real

variable {n : ℕ}

/-! ## C92 Masses and sizes of any number of engine types -/

/-! ### Factors for many engines -/

/-- Up to four engines count one each. -/
theorem engineCountFactor_of_le {k : ℕ} (h : k ≤ 4) : engineCountFactor k = k := by
  unfold engineCountFactor; rw [if_neg (by omega)]

/-- More engines never count less, and each further engine counts something. -/
theorem engineCountFactor_strictMono : StrictMono engineCountFactor := by
  apply strictMono_nat_of_lt_succ
  intro k
  unfold engineCountFactor
  by_cases h : k > 4
  · rw [if_pos h, if_pos (by omega)]
    have : arctan (((k : ℝ) - 4) / 3) < arctan (((k + 1 : ℕ) - 4 : ℝ) / 3) :=
      arctan_strictMono (by push_cast; linarith)
    linarith
  · rw [if_neg h]
    by_cases h4 : k = 4
    · subst h4
      rw [if_pos (by omega)]
      have : 0 < arctan ((((4 + 1 : ℕ) : ℝ) - 4) / 3) := arctan_pos.mpr (by norm_num)
      push_cast at this ⊢
      linarith
    · rw [if_neg (by omega)]
      push_cast; linarith

/-- However many engines there are, the factor stays below 4 + π. -/
theorem engineCountFactor_lt (k : ℕ) : engineCountFactor k < 4 + π := by
  unfold engineCountFactor
  split
  · linarith [arctan_lt_pi_div_two (((k : ℝ) - 4) / 3)]
  · have : (k : ℝ) ≤ 4 := by exact_mod_cast (by omega : k ≤ 4)
    linarith [pi_pos]

theorem arctan_le_self {x : ℝ} (h : 0 ≤ x) : arctan x ≤ x := by
  rcases h.eq_or_lt with h | h
  · rw [← h]; simp
  · have := le_tan (arctan_nonneg.mpr h.le) (arctan_lt_pi_div_two x)
    rwa [tan_arctan] at this

/-- The factor never exceeds the number of engines. -/
theorem engineCountFactor_le (k : ℕ) : engineCountFactor k ≤ k := by
  unfold engineCountFactor
  split
  · next h =>
    have hk : (4 : ℝ) ≤ k := by exact_mod_cast (by omega : 4 ≤ k)
    have := arctan_le_self (x := ((k : ℝ) - 4) / 3) (by linarith)
    linarith
  · exact le_rfl

/-- From five engines on it is strictly below the number of engines. -/
theorem engineCountFactor_lt_self {k : ℕ} (h : 4 < k) : engineCountFactor k < k := by
  unfold engineCountFactor
  rw [if_pos h]
  have hk : (5 : ℝ) ≤ k := by exact_mod_cast h
  have := arctan_le_self (x := ((k : ℝ) - 4) / 3) (by linarith)
  linarith

/-- Sharing the thrust over the factor never gives less than sharing it over the engines. -/
theorem thrustFactor_ge {k : ℕ} {t : ℝ} (hk : 0 < k) (ht : 0 ≤ t) : t / k ≤ thrustFactor t k := by
  unfold thrustFactor
  have h0 : 0 < engineCountFactor k := by
    have := engineCountFactor_strictMono hk
    rw [engineCountFactor_of_le (by omega)] at this
    simpa using this
  exact div_le_div_of_nonneg_left ht h0 (engineCountFactor_le k)

theorem total_pos_of {num : Fin n → ℕ} {i : Fin n} (h : 0 < num i) : 0 < total num :=
  lt_of_lt_of_le h (Finset.single_le_sum (f := num) (fun _ _ => Nat.zero_le _) (Finset.mem_univ i))

/-- If all nacelles have one diameter, the average is that diameter. -/
theorem avgDiam_const {num : Fin n → ℕ} (h : 0 < total num) (d : ℝ) :
    avgDiam num (fun _ => d) = d := by
  unfold avgDiam
  rw [← Finset.mul_sum]
  have : (∑ i, (num i : ℝ)) = (total num : ℝ) := by unfold total; push_cast; rfl
  rw [this]
  field_simp [(Nat.cast_pos (α := ℝ)).mpr h |>.ne']

/-- The average lies between bounds of the diameters. -/
theorem avgDiam_mem {num : Fin n → ℕ} (h : 0 < total num) {d : Fin n → ℝ} {lo hi : ℝ}
    (hlo : ∀ i, lo ≤ d i) (hhi : ∀ i, d i ≤ hi) :
    lo ≤ avgDiam num d ∧ avgDiam num d ≤ hi := by
  have hN : (0 : ℝ) < total num := Nat.cast_pos.mpr h
  have hs : (∑ i, (num i : ℝ)) = (total num : ℝ) := by unfold total; push_cast; rfl
  unfold avgDiam
  constructor
  · rw [le_div_iff₀ hN, ← hs, Finset.mul_sum]
    exact Finset.sum_le_sum fun i _ => mul_le_mul_of_nonneg_right (hlo i) (Nat.cast_nonneg _)
  · rw [div_le_iff₀ hN, ← hs, Finset.mul_sum]
    exact Finset.sum_le_sum fun i _ => mul_le_mul_of_nonneg_right (hhi i) (Nat.cast_nonneg _)

/-- A nacelle on the centre line counts one and a half: the factor is the number of engines, plus
one half for an odd number. -/
theorem nacelleCount_eq (k : ℕ) :
    nacelleCount k = if k % 2 = 1 then (k : ℝ) + 1 / 2 else k := by
  unfold nacelleCount
  rcases Nat.mod_two_eq_zero_or_one k with h | h <;> simp [h]

theorem nacelleCount_ge (k : ℕ) : (k : ℝ) ≤ nacelleCount k := by
  rw [nacelleCount_eq]; split <;> linarith

/-! ### Engine masses -/

/-- An engine that is not scaled in thrust keeps its reference mass. -/
theorem engineMass_ref (scale : Bool) (ref p : ℝ) {T : ℝ} (hT : T ≠ 0) :
    engineMass scale ref T T p = ref := by
  unfold engineMass
  split
  · simp [div_self hT]
  · split <;> simp

/-- If scaling of the mass is off, the mass is the reference mass whatever the thrust. -/
theorem engineMass_off (ref refT T p : ℝ) : engineMass false ref refT T p = ref := by
  simp [engineMass]

/-- With scaling on and a positive scaler, more thrust means a heavier engine. -/
theorem engineMass_strictMono {ref refT p T T' : ℝ} (hm : 0 < ref) (hr : 0 < refT) (hp : 0 < p)
    (hT : 0 ≤ T) (h : T < T') :
    engineMass true ref refT T p < engineMass true ref refT T' p := by
  unfold engineMass
  by_cases hp3 : p ≥ 3 / 10
  · simp only [hp3, and_self, if_true]
    apply mul_lt_mul_of_pos_left _ hm
    exact rpow_lt_rpow (div_nonneg hT hr.le) (div_lt_div_of_pos_right h hr) hp
  · have hp3' : p < 3 / 10 := lt_of_not_ge hp3
    simp only [hp3, and_false, if_false, hp3', and_self, if_true]
    nlinarith

example : engineMass true 100 1 1 (1 / 2) < engineMass true 100 1 4 (1 / 2) :=
  engineMass_strictMono (by norm_num) (by norm_num) (by norm_num) (by norm_num) (by norm_num)

/-- In the power law a positive mass stays positive. -/
theorem engineMass_pos_partial {scale : Bool} {ref refT T p : ℝ} (hm : 0 < ref) (hr : 0 < refT)
    (hT : 0 < T) (hp : 3 / 10 ≤ p ∨ scale = false) : 0 < engineMass scale ref refT T p := by
  rcases hp with hp | hp
  · unfold engineMass
    cases scale
    · simpa using hm
    · simp only [ge_iff_le, hp, and_self, if_true]
      exact mul_pos hm (rpow_pos_of_pos (div_pos hT hr) _)
  · subst hp; rw [engineMass_off]; exact hm

/-- In the linear law it need not: an engine of 100 lbm at 1000 lbf scaled down to 400 lbf with the
scaler 1/5 gets a negative mass. -/
theorem engineMass_pos_violated :
    ¬ ∀ ref refT T p : ℝ, 0 < ref → 0 < refT → 0 < T → 0 < p →
      0 < engineMass true ref refT T p := by
  intro h
  have := h 100 1000 400 (1 / 5) (by norm_num) (by norm_num) (by norm_num) (by norm_num)
  norm_num [engineMass] at this

/-- The two laws do not meet: the mass jumps where the scaler reaches 0.3. -/
theorem engineMass_jump_violated :
    ¬ ∀ ref refT T : ℝ, 0 < ref → 0 < refT → 0 < T →
      Continuous fun p => engineMass true ref refT T p := by
  intro h
  have hc := (h 1 1 1024 one_pos one_pos (by norm_num)).continuousAt (x := 3 / 10)
  have h8 : engineMass true 1 1 1024 (3 / 10) = 8 := by
    have : (1024 : ℝ) ^ (3 / 10 : ℝ) = 8 := by
      rw [show (1024 : ℝ) = (2 : ℝ) ^ (10 : ℝ) by norm_num, ← rpow_mul (by norm_num)]
      norm_num
    simp [engineMass, this]
  have hlt := hc.tendsto.eventually_lt_const (u := 9) (by simp only [h8]; norm_num)
  obtain ⟨e, he, hb⟩ := Metric.eventually_nhds_iff.mp hlt
  have hq := hb (y := 3 / 10 - min (e / 2) (1 / 10)) (by
    rw [Real.dist_eq]
    have : 0 < min (e / 2) (1 / 10) := lt_min (by linarith) (by norm_num)
    rw [show (3 : ℝ) / 10 - min (e / 2) (1 / 10) - 3 / 10 = -min (e / 2) (1 / 10) by ring, abs_neg,
      abs_of_pos this]
    exact lt_of_le_of_lt (min_le_left _ _) (by linarith))
  have h1 : min (e / 2) (1 / 10 : ℝ) ≤ 1 / 10 := min_le_right _ _
  have h2 : 0 < min (e / 2) (1 / 10 : ℝ) := lt_min (by linarith) (by norm_num)
  unfold engineMass at hq
  rw [if_neg (by intro h; linarith [h.2]), if_pos ⟨rfl, by linarith⟩] at hq
  linarith

theorem engineMass_thrust (scale : Bool) {ref refT T p : ℝ} (hr : 0 < refT) (hT : 0 < T) :
    HasDerivAt (fun t => engineMass scale ref refT t p) (thrustDeriv scale ref refT T p) T := by
  unfold engineMass thrustDeriv
  split
  · have h1 : HasDerivAt (fun t => t / refT) (1 / refT) T := (hasDerivAt_id T).div_const refT
    have h2 := (hasDerivAt_rpowd (p := p) h1 (div_pos hT hr).ne').const_mul ref
    refine hd_congr h2 (fun t => ?_) ?_
    · rfl
    field_simp
  · split
    · simpa using (((hasDerivAt_id T).sub_const refT).mul_const p).const_add ref
    · exact hasDerivAt_const _ _

theorem engineMass_refThrust (scale : Bool) {ref refT T p : ℝ} (hr : 0 < refT) (hT : 0 < T) :
    HasDerivAt (fun t => engineMass scale ref t T p) (slsDeriv scale ref refT T p) refT := by
  unfold engineMass slsDeriv
  split
  · have h1 : HasDerivAt (fun t => T / t) (-T / refT ^ 2) refT := by
      simpa using (hasDerivAt_const refT T).fun_div (hasDerivAt_id refT) hr.ne'
    have h2 := (hasDerivAt_rpowd (p := p) h1 (div_pos hT hr).ne').const_mul ref
    refine hd_congr h2 (fun t => ?_) ?_
    · rfl
    field_simp
  · split
    · simpa using (((hasDerivAt_id refT).const_sub T).mul_const p).const_add ref
    · exact hasDerivAt_const _ _

theorem engineMass_ref_mass (scale : Bool) {ref refT T p : ℝ} :
    HasDerivAt (fun t => engineMass scale t refT T p) (refMassDeriv scale refT T p) ref := by
  unfold engineMass refMassDeriv
  split
  · simpa using (hasDerivAt_id ref).mul_const ((T / refT) ^ p)
  · split
    · simpa using (hasDerivAt_id ref).add_const ((T - refT) * p)
    · exact hasDerivAt_id ref

theorem engineMass_scaler (scale : Bool) {ref refT T p : ℝ} (hr : 0 < refT) (hT : 0 < T)
    (hp : p ≠ 3 / 10) :
    HasDerivAt (fun q => engineMass scale ref refT T q) (scaleDeriv scale ref refT T p) p := by
  cases scale
  · simp only [engineMass, scaleDeriv, Bool.false_eq_true, false_and, if_false]
    exact hasDerivAt_const _ _
  · rcases lt_or_gt_of_ne hp with h | h
    · have e : (fun q => engineMass true ref refT T q) =ᶠ[nhds p] fun q => ref + (T - refT) * q := by
        filter_upwards [eventually_lt_nhds h] with q hq
        unfold engineMass
        rw [if_neg (by intro c; linarith [c.2]), if_pos ⟨rfl, hq⟩]
      unfold scaleDeriv
      rw [if_neg (by intro c; linarith [c.2]), if_pos ⟨rfl, h⟩]
      refine HasDerivAt.congr_of_eventuallyEq ?_ e
      simpa using ((hasDerivAt_id p).const_mul (T - refT)).const_add ref
    · have e : (fun q => engineMass true ref refT T q) =ᶠ[nhds p]
          fun q => ref * (T / refT) ^ q := by
        filter_upwards [eventually_gt_nhds h] with q hq
        unfold engineMass
        rw [if_pos ⟨rfl, hq.le⟩]
      unfold scaleDeriv
      rw [if_pos ⟨rfl, h.le⟩]
      refine HasDerivAt.congr_of_eventuallyEq ?_ e
      have := (hasDerivAt_id p).const_rpow (a := T / refT) (div_pos hT hr) |>.const_mul ref
      refine hd_congr this (fun t => ?_) ?_
      · rfl
      simp; ring

/-- Every partial that `EngineMass` sets, for any number of engine types: the mass and additional
mass of type `j` by the inputs of type `i`, and the total by the inputs of type `i`. -/
theorem engineMass_partials (num : Fin n → ℕ) (scale : Fin n → Bool) (frac : Fin n → ℝ)
    (ref refT T p : Fin n → ℝ) (hr : ∀ i, 0 < refT i) (hT : ∀ i, 0 < T i)
    (hp : ∀ i, p i ≠ 3 / 10) (i j : Fin n) :
    (PartialAt (fun T => engineMass (scale j) (ref j) (refT j) (T j) (p j)) T i
        (if j = i then thrustDeriv (scale i) (ref i) (refT i) (T i) (p i) else 0)
      ∧ PartialAt (fun p => engineMass (scale j) (ref j) (refT j) (T j) (p j)) p i
        (if j = i then scaleDeriv (scale i) (ref i) (refT i) (T i) (p i) else 0)
      ∧ PartialAt (fun ref => engineMass (scale j) (ref j) (refT j) (T j) (p j)) ref i
        (if j = i then refMassDeriv (scale i) (refT i) (T i) (p i) else 0)
      ∧ PartialAt (fun refT => engineMass (scale j) (ref j) (refT j) (T j) (p j)) refT i
        (if j = i then slsDeriv (scale i) (ref i) (refT i) (T i) (p i) else 0))
    ∧ (PartialAt (fun T => totalEngineMass num scale ref refT T p) T i
        (thrustDeriv (scale i) (ref i) (refT i) (T i) (p i) * num i)
      ∧ PartialAt (fun p => totalEngineMass num scale ref refT T p) p i
        (scaleDeriv (scale i) (ref i) (refT i) (T i) (p i) * num i)
      ∧ PartialAt (fun ref => totalEngineMass num scale ref refT T p) ref i
        (refMassDeriv (scale i) (refT i) (T i) (p i) * num i)
      ∧ PartialAt (fun refT => totalEngineMass num scale ref refT T p) refT i
        (slsDeriv (scale i) (ref i) (refT i) (T i) (p i) * num i))
    ∧ (PartialAt (fun T => additionalMass (frac j) (scale j) (ref j) (refT j) (T j) (p j)) T i
        (if j = i then frac i * thrustDeriv (scale i) (ref i) (refT i) (T i) (p i) else 0)
      ∧ PartialAt (fun p => additionalMass (frac j) (scale j) (ref j) (refT j) (T j) (p j)) p i
        (if j = i then frac i * scaleDeriv (scale i) (ref i) (refT i) (T i) (p i) else 0)
      ∧ PartialAt (fun ref => additionalMass (frac j) (scale j) (ref j) (refT j) (T j) (p j)) ref i
        (if j = i then frac i * refMassDeriv (scale i) (refT i) (T i) (p i) else 0)
      ∧ PartialAt (fun refT => additionalMass (frac j) (scale j) (ref j) (refT j) (T j) (p j)) refT
        i (if j = i then frac i * slsDeriv (scale i) (ref i) (refT i) (T i) (p i) else 0)) := by
  have a := engineMass_thrust (scale i) (ref := ref i) (p := p i) (hr i) (hT i)
  have b := engineMass_scaler (scale i) (ref := ref i) (hr i) (hT i) (hp i)
  have c := engineMass_ref_mass (scale i) (ref := ref i) (refT := refT i) (T := T i) (p := p i)
  have d := engineMass_refThrust (scale i) (ref := ref i) (p := p i) (hr i) (hT i)
  refine ⟨⟨?_, ?_, ?_, ?_⟩, ⟨?_, ?_, ?_, ?_⟩, ?_, ?_, ?_, ?_⟩
  · exact partialAt_entry (fun j t => engineMass (scale j) (ref j) (refT j) t (p j)) T i j a
  · exact partialAt_entry (fun j t => engineMass (scale j) (ref j) (refT j) (T j) t) p i j b
  · exact partialAt_entry (fun j t => engineMass (scale j) t (refT j) (T j) (p j)) ref i j c
  · exact partialAt_entry (fun j t => engineMass (scale j) (ref j) t (T j) (p j)) refT i j d
  · exact partialAt_sum (fun j t => engineMass (scale j) (ref j) (refT j) t (p j) * num j) T i
      (a.mul_const _)
  · exact partialAt_sum (fun j t => engineMass (scale j) (ref j) (refT j) (T j) t * num j) p i
      (b.mul_const _)
  · exact partialAt_sum (fun j t => engineMass (scale j) t (refT j) (T j) (p j) * num j) ref i
      (c.mul_const _)
  · exact partialAt_sum (fun j t => engineMass (scale j) (ref j) t (T j) (p j) * num j) refT i
      (d.mul_const _)
  · exact partialAt_entry (fun j t => additionalMass (frac j) (scale j) (ref j) (refT j) t (p j))
      T i j (a.const_mul _)
  · exact partialAt_entry (fun j t => additionalMass (frac j) (scale j) (ref j) (refT j) (T j) t)
      p i j (b.const_mul _)
  · exact partialAt_entry (fun j t => additionalMass (frac j) (scale j) t (refT j) (T j) (p j))
      ref i j (c.const_mul _)
  · exact partialAt_entry (fun j t => additionalMass (frac j) (scale j) (ref j) t (T j) (p j))
      refT i j (d.const_mul _)

/-- Two types, one of two engines scaled by the power law and one of one engine scaled linearly,
meet the conditions. -/
example : (∀ i : Fin 2, 0 < ![(1000 : ℝ), 2000] i) ∧ (∀ i : Fin 2, 0 < ![(1500 : ℝ), 2500] i)
    ∧ ∀ i : Fin 2, ![(1 / 2 : ℝ), 1 / 5] i ≠ 3 / 10 := by
  refine ⟨?_, ?_, ?_⟩ <;> intro i <;> fin_cases i <;> norm_num

/-- Scaling no engine gives the sum of the reference masses of all engines. -/
theorem totalEngineMass_off (num : Fin n → ℕ) (ref refT T p : Fin n → ℝ) :
    totalEngineMass num (fun _ => false) ref refT T p = ∑ i, ref i * num i := by
  simp [totalEngineMass, engineMass_off]

/-! ### Reversers and miscellaneous mass -/

theorem reverser_partials (num : Fin n → ℕ) (T s : Fin n → ℝ) (i j : Fin n) :
    PartialAt (fun s => reverserMass (num j) (T j) (s j)) s i
      (if j = i then dReverserScaler (num i) (T i) else 0)
    ∧ PartialAt (fun T => reverserMass (num j) (T j) (s j)) T i
      (if j = i then dReverserThrust (num i) (s i) else 0)
    ∧ PartialAt (fun s => totalReverserMass num T s) s i (dReverserScaler (num i) (T i))
    ∧ PartialAt (fun T => totalReverserMass num T s) T i (dReverserThrust (num i) (s i)) := by
  have a : HasDerivAt (fun t => reverserMass (num i) (T i) t) (dReverserScaler (num i) (T i)) (s i)
      := by
    unfold reverserMass dReverserScaler
    simpa using (hasDerivAt_id (s i)).const_mul (34 / 1000 * T i * nacelleCount (num i))
  have b : HasDerivAt (fun t => reverserMass (num i) t (s i)) (dReverserThrust (num i) (s i)) (T i)
      := by
    unfold reverserMass dReverserThrust
    simpa using (((hasDerivAt_id (T i)).const_mul (34 / 1000 : ℝ)).mul_const
      (nacelleCount (num i))).mul_const (s i)
  exact ⟨partialAt_entry (fun j t => reverserMass (num j) (T j) t) s i j a,
    partialAt_entry (fun j t => reverserMass (num j) t (s j)) T i j b,
    partialAt_sum (fun j t => reverserMass (num j) (T j) t) s i a,
    partialAt_sum (fun j t => reverserMass (num j) t (s j)) T i b⟩

theorem misc_partials (num : Fin n → ℕ) (addtl : Fin n → ℝ) (ctrl starter scaler : ℝ) (i : Fin n) :
    PartialAt (fun a => miscMass num a ctrl starter scaler) addtl i (dMiscAddtl num scaler i)
    ∧ HasDerivAt (fun t => miscMass num addtl t starter scaler) scaler ctrl
    ∧ HasDerivAt (fun t => miscMass num addtl ctrl t scaler) scaler starter
    ∧ HasDerivAt (fun t => miscMass num addtl ctrl starter t)
        (starter + ∑ i, addtl i * num i + ctrl) scaler := by
  refine ⟨?_, ?_, ?_, ?_⟩
  · have h := partialAt_sum (fun j t => t * (num j : ℝ)) addtl i
      (d := num i) (by simpa using (hasDerivAt_id (addtl i)).mul_const (num i : ℝ))
    have := h.comp (g := fun z => (starter + z + ctrl) * scaler) (g' := scaler)
      (by simpa using (((hasDerivAt_id _).const_add starter).add_const ctrl).mul_const scaler)
    exact this
  · simpa [miscMass] using
      ((hasDerivAt_id ctrl).const_add (starter + ∑ i, addtl i * num i)).mul_const scaler
  · have := (((hasDerivAt_id starter).add_const (∑ i, addtl i * (num i : ℝ))).add_const
      ctrl).mul_const scaler
    simpa [miscMass] using this
  · simpa [miscMass] using
      (hasDerivAt_id scaler).const_mul (starter + ∑ i, addtl i * num i + ctrl)

/-! ### Engine pods -/

theorem max_one_nat {k : ℕ} (h : 0 < k) : max (1 : ℝ) k = k :=
  max_eq_right (by exact_mod_cast h)

/-- The shares of the system masses add up to one when the total thrust is that of all engines. -/
theorem thrustRatio_sum (num : Fin n → ℕ) (T : Fin n → ℝ) (hT : ∑ i, T i * num i ≠ 0) :
    ∑ i, thrustRatio (num i) (T i) (∑ j, T j * num j) = 1 := by
  unfold thrustRatio
  rw [← Finset.sum_div, div_self hT]

/-- No mass is lost or counted twice: over all engines the pods hold the engines, the reversers, the
systems' share, and for each engine one nacelle without the extra half of a centre line nacelle. -/
theorem pods_conserve (s : Systems) (num : Fin n → ℕ) (mEng mThr mNac T : Fin n → ℝ)
    (hn : ∀ i, 0 < num i) (hT : ∑ i, T i * num i ≠ 0) :
    ∑ i, num i * podMass s (∑ j, T j * num j) (num i) (mEng i) (mThr i) (mNac i) (T i)
      = ∑ i, num i * mEng i + ∑ i, mThr i + s.inPods
        + ∑ i, num i * (mNac i * num i / nacelleCount (num i)) := by
  have h1 := thrustRatio_sum num T hT
  have : ∀ i, num i * podMass s (∑ j, T j * num j) (num i) (mEng i) (mThr i) (mNac i) (T i)
      = num i * mEng i + mThr i + thrustRatio (num i) (T i) (∑ j, T j * num j) * s.inPods
        + num i * (mNac i * num i / nacelleCount (num i)) := by
    intro i
    have hk : (0 : ℝ) < num i := Nat.cast_pos.mpr (hn i)
    have hc : max 1 (nacelleCount (num i)) = nacelleCount (num i) :=
      max_eq_right (le_trans (by exact_mod_cast hn i) (nacelleCount_ge _))
    unfold podMass
    rw [max_one_nat (hn i), hc, mul_add, mul_div_cancel₀ _ hk.ne']
  simp only [this, Finset.sum_add_distrib, ← Finset.sum_mul, h1, one_mul]

example : (∀ i : Fin 2, 0 < ![2, 1] i) ∧ ∑ i : Fin 2, ![(100 : ℝ), 50] i * ![2, 1] i ≠ 0 := by
  refine ⟨by decide, ?_⟩
  simp [Fin.sum_univ_two]; norm_num

/-- With the nacelle masses of `NacelleMass` (not a blended wing body) each pod holds one plain
nacelle, also on the centre line. -/
theorem pod_nacelle {k wing : ℕ} (hk : 0 < k) (diam length T scaler : ℝ) :
    nacelleMass false k wing diam length T scaler * k / nacelleCount k
      = 1 / 4 * diam * length * T ^ (36 / 100 : ℝ) * scaler := by
  have h1 : (0 : ℝ) < k := Nat.cast_pos.mpr hk
  have h2 : 0 < nacelleCount k := lt_of_lt_of_le h1 (nacelleCount_ge k)
  unfold nacelleMass nacelleFactor
  simp only [Bool.false_eq_true, if_false]
  field_simp

/-- Every partial of the pod mass of type `j`, by the vector inputs of type `i` and the scalar
inputs, with at least one engine of each type and a nonzero total thrust. -/
theorem pod_partials_partial (s : Systems) (W : ℝ) (hW : W ≠ 0) (num : Fin n → ℕ)
    (mEng mThr mNac T : Fin n → ℝ) (i j : Fin n) (hn : 0 < num i) :
    PartialAt (fun m => podMass s W (num j) (m j) (mThr j) (mNac j) (T j)) mEng i
      (if j = i then dPodEngine else 0)
    ∧ PartialAt (fun m => podMass s W (num j) (mEng j) (m j) (mNac j) (T j)) mThr i
      (if j = i then dPodReverser (num i) else 0)
    ∧ PartialAt (fun m => podMass s W (num j) (mEng j) (mThr j) (m j) (T j)) mNac i
      (if j = i then dPodNacelle (num i) else 0)
    ∧ PartialAt (fun m => podMass s W (num j) (mEng j) (mThr j) (mNac j) (m j)) T i
      (if j = i then dPodThrust s (num i) W else 0)
    ∧ HasDerivAt (fun w => podMass s w (num j) (mEng j) (mThr j) (mNac j) (T j))
      (dPodTotalThrust s (num j) (T j) W) W
    ∧ HasDerivAt (fun t => podMass { s with start := t } W (num j) (mEng j) (mThr j) (mNac j) (T j))
      (dPodStart (num j) (T j) W) s.start
    ∧ HasDerivAt (fun t => podMass { s with ctrl := t } W (num j) (mEng j) (mThr j) (mNac j) (T j))
      (dPodCtrl (num j) (T j) W) s.ctrl
    ∧ HasDerivAt (fun t => podMass { s with fsys := t } W (num j) (mEng j) (mThr j) (mNac j) (T j))
      (dPodFsys (num j) (T j) W) s.fsys
    ∧ HasDerivAt (fun t => podMass { s with elec := t } W (num j) (mEng j) (mThr j) (mNac j) (T j))
      (dPodElec (num j) (T j) W) s.elec
    ∧ HasDerivAt (fun t => podMass { s with hyd := t } W (num j) (mEng j) (mThr j) (mNac j) (T j))
      (dPodHyd (num j) (T j) W) s.hyd
    ∧ HasDerivAt (fun t => podMass { s with inst := t } W (num j) (mEng j) (mThr j) (mNac j) (T j))
      (dPodInst (num j) (T j) W) s.inst := by
  have hk : (0 : ℝ) < num i := Nat.cast_pos.mpr hn
  have hM : ∀ k : ℕ, (max (1 : ℝ) k) ≠ 0 := fun k => (lt_of_lt_of_le one_pos (le_max_left _ _)).ne'
  have lin : ∀ (a b x : ℝ), HasDerivAt (fun t => a * t + b) a x := by
    intro a b x; simpa using ((hasDerivAt_id x).const_mul a).add_const b
  have aff : ∀ (f : ℝ → ℝ) (d x : ℝ), (∀ t, f t = d * t + f 0) → HasDerivAt f d x := by
    intro f d x h
    have : f = fun t => d * t + f 0 := funext h
    rw [this]; exact lin d (f 0) x
  refine ⟨?_, ?_, ?_, ?_, ?_, ?_, ?_, ?_, ?_, ?_, ?_⟩
  · refine partialAt_entry (fun j t => podMass s W (num j) t (mThr j) (mNac j) (T j)) mEng i j ?_
    apply aff; intro t
    unfold podMass dPodEngine
    rw [max_one_nat hn]; field_simp; ring
  · refine partialAt_entry (fun j t => podMass s W (num j) (mEng j) t (mNac j) (T j)) mThr i j ?_
    apply aff; intro t
    unfold podMass dPodReverser podFact1
    have := hM (num i); field_simp; ring
  · refine partialAt_entry (fun j t => podMass s W (num j) (mEng j) (mThr j) t (T j)) mNac i j ?_
    apply aff; intro t
    unfold podMass dPodNacelle podFact2; ring
  · refine partialAt_entry (fun j t => podMass s W (num j) (mEng j) (mThr j) (mNac j) t) T i j ?_
    apply aff; intro t
    unfold podMass dPodThrust podFact1 thrustRatio; ring
  · have h1 : HasDerivAt (fun w => T j * num j / w) (-(T j * num j) / W ^ 2) W := by
      simpa using (hasDerivAt_const W (T j * (num j : ℝ))).fun_div (hasDerivAt_id W) hW
    have h2 := (((h1.mul_const s.inPods).const_add (num j * mEng j + mThr j)).div_const
      (max 1 (num j : ℝ))).add_const (mNac j * num j / max 1 (nacelleCount (num j)))
    unfold podMass dPodTotalThrust podFact1 thrustRatio
    refine hd_congr h2 (fun t => ?_) ?_
    · rfl
    have := hM (num j); field_simp
  all_goals
    apply aff; intro t
    simp only [podMass, Systems.inPods, dPodStart, dPodCtrl, dPodFsys, dPodElec, dPodHyd, dPodInst,
      podFact1]
    ring

/-- With no engine of a type, the pod mass does not depend on the engine mass, but the partial says
1. -/
theorem pod_engine_partial_violated :
    ¬ ∀ (s : Systems) (W : ℝ) (k : ℕ) (mEng mThr mNac T : ℝ), W ≠ 0 →
      HasDerivAt (fun m => podMass s W k m mThr mNac T) dPodEngine mEng := by
  intro h
  have := h ⟨0, 0, 0, 0, 0, 0⟩ 1 0 0 0 0 0 one_ne_zero
  have h2 : HasDerivAt (fun m => podMass ⟨0, 0, 0, 0, 0, 0⟩ 1 0 m 0 0 0) 0 0 := by
    simpa [podMass, thrustRatio] using hasDerivAt_const (0 : ℝ) (0 : ℝ)
  have := this.unique h2
  simp [dPodEngine] at this

/-! ### Average nacelle diameter: starters and anti-icing -/

/-- The right partial of the diameter factor: the share of the engines of type `i`, times half the
root of the number of engines above four. -/
theorem diamFactor_partial (num : Fin n → ℕ) (d : Fin n → ℝ) (i : Fin n) :
    PartialAt (diamFactor num) d i
      (if total num > 4 then num i / total num * (1 / 2 * √(total num)) else num i / total num) := by
  have h := partialAt_sum (fun j t => t * (num j : ℝ)) d i
      (d := num i) (by simpa using (hasDerivAt_id (d i)).mul_const (num i : ℝ))
  by_cases hN : total num > 4
  · have := h.comp (g := fun z => 1 / 2 * (z / total num) * √(total num))
      (g' := 1 / 2 * (1 / total num) * √(total num))
      ((((hasDerivAt_id _).div_const (total num : ℝ)).const_mul
            (1 / 2)).mul_const (√(total num)))
    rw [if_pos hN]
    unfold PartialAt at *
    have e : (fun t => diamFactor num (Function.update d i t)) = fun t =>
        1 / 2 * ((∑ j, (Function.update d i t j) * (num j : ℝ)) / total num) * √(total num) := by
      funext t; simp [diamFactor, hN, avgDiam]
    rw [e]
    convert this using 1; ring
  · have := h.comp (g := fun z => z / (total num : ℝ)) (g' := 1 / total num)
      (by simpa using (hasDerivAt_id _).div_const (total num : ℝ))
    rw [if_neg hN]
    unfold PartialAt at *
    have e : (fun t => diamFactor num (Function.update d i t)) = fun t =>
        (∑ j, (Function.update d i t j) * (num j : ℝ)) / total num := by
      funext t; simp [diamFactor, hN, avgDiam]
    rw [e]
    convert this using 1; ring

/-- `distributed_nacelle_diam_factor_deriv` is that partial for more than four engines, or when all
engines are of type `i`. -/
theorem diamFactorDeriv_partial {num : Fin n → ℕ} (d : Fin n → ℝ) (i : Fin n)
    (h : 4 < total num ∨ (num i = total num ∧ 0 < total num)) :
    PartialAt (diamFactor num) d i (diamFactorDeriv num i) := by
  have := diamFactor_partial num d i
  refine hd_congr this (fun t => ?_) ?_
  · rfl
  unfold diamFactorDeriv
  by_cases hN : total num > 4
  · simp only [hN, if_true]; ring
  · rw [if_neg hN, if_neg hN]
    rcases h with h | ⟨h, hp⟩
    · exact absurd h hN
    · rw [h, div_self (Nat.cast_pos.mpr hp).ne']

/-- With one engine of each of two types, the average moves by half of a diameter's change, but the
function says by all of it. -/
theorem diamFactorDeriv_violated :
    ¬ ∀ (num : Fin 2 → ℕ) (d : Fin 2 → ℝ) (i : Fin 2), (∀ j, 0 < num j) →
      PartialAt (diamFactor num) d i (diamFactorDeriv num i) := by
  intro h
  have h1 := h ![1, 1] ![1, 1] 0 (by decide)
  have h2 := diamFactor_partial ![1, 1] ![1, 1] 0
  have := h1.unique h2
  simp [diamFactorDeriv, total, Fin.sum_univ_two] at this

/-- `AntiIcingMass`: the partials by diameter and scale factor are right for more than four engines
or if all engines are of the one type. -/
theorem antiIcing_partials_partial {num : Fin n → ℕ} {tot : ℕ} (edge width scaler : ℝ)
    (diam ratio : Fin n → ℝ) (i : Fin n) (hr : 0 < ratio i)
    (h : 4 < total num ∨ (num i = total num ∧ 0 < total num)) :
    PartialAt (fun d => antiIcingMass num tot edge width scaler d ratio) diam i
      (dAntiIcingDiam num tot scaler ratio i)
    ∧ PartialAt (fun r => antiIcingMass num tot edge width scaler diam r) ratio i
      (dAntiIcingRatio num tot scaler diam ratio i) := by
  have hD := diamFactorDeriv_partial (num := num) (fun i => diam i * √(ratio i)) i h
  unfold PartialAt at hD
  have aff : ∀ z, HasDerivAt (fun z => (edge + 38 / 10 * z * engineCountFactor tot
      + 15 / 10 * width) * scaler) (38 / 10 * engineCountFactor tot * scaler) z := by
    intro z
    simpa using (((((hasDerivAt_id z).const_mul (38 / 10 : ℝ)).mul_const
      (engineCountFactor tot)).const_add edge).add_const (15 / 10 * width)).mul_const scaler
  constructor
  · have h1 : HasDerivAt (fun t => t * √(ratio i)) (√(ratio i)) (diam i) := by
      simpa using (hasDerivAt_id (diam i)).mul_const (√(ratio i))
    have h2 := HasDerivAt.comp (diam i) hD h1
    have h3 := (aff _).comp (diam i) h2
    unfold PartialAt
    refine hd_congr h3 (fun t => ?_) ?_
    · simp only [antiIcingMass, Function.comp]
      congr 6
      funext j
      by_cases hj : j = i
      · subst hj; simp
      · simp [Function.update_of_ne hj]
    · unfold dAntiIcingDiam; ring
  · have h1 : HasDerivAt (fun t => diam i * √t) (diam i * (1 / (2 * √(ratio i)))) (ratio i) :=
      (hasDerivAt_sqrt hr.ne').const_mul (diam i)
    have h2 := HasDerivAt.comp (ratio i) hD h1
    have h3 := (aff _).comp (ratio i) h2
    unfold PartialAt
    refine hd_congr h3 (fun t => ?_) ?_
    · simp only [antiIcingMass, Function.comp]
      congr 6
      funext j
      by_cases hj : j = i
      · subst hj; simp
      · simp [Function.update_of_ne hj]
    · unfold dAntiIcingRatio
      have hs : √(ratio i) * √(ratio i) = ratio i := mul_self_sqrt hr.le
      have h0 : √(ratio i) ≠ 0 := (sqrt_pos.mpr hr).ne'
      have hq : √(ratio i) / ratio i = 1 / √(ratio i) := by
        rw [div_eq_div_iff hr.ne' h0, one_mul, hs]
      linear_combination (38 / 10 * diamFactorDeriv num i * diam i * (1 / 2)
        * engineCountFactor tot * scaler) * hq

/-- Two types with one engine each: the partial is twice the true one. -/
theorem antiIcing_partials_violated :
    ¬ ∀ (num : Fin 2 → ℕ) (edge width scaler : ℝ) (diam ratio : Fin 2 → ℝ) (i : Fin 2),
      (∀ j, 0 < num j) → (∀ j, 0 < ratio j) →
      PartialAt (fun d => antiIcingMass num (total num) edge width scaler d ratio) diam i
        (dAntiIcingDiam num (total num) scaler ratio i) := by
  intro h
  have h1 := h ![1, 1] 0 0 1 ![1, 1] ![1, 1] 0 (by decide)
    (by intro j; fin_cases j <;> simp)
  have h2 : PartialAt (fun d => antiIcingMass ![1, 1] (total ![1, 1]) 0 0 1 d ![1, 1]) ![1, 1] 0
      (38 / 10) := by
    have := (diamFactor_partial ![1, 1] ![1, 1] 0).comp
      (g := fun z => (0 + 38 / 10 * z * engineCountFactor (total ![1, 1]) + 15 / 10 * 0) * 1)
      (g' := 38 / 10 * engineCountFactor (total ![1, 1])) (by
        simpa using ((hasDerivAt_id _).const_mul (38 / 10 : ℝ)).mul_const
          (engineCountFactor (total ![1, 1])))
    unfold PartialAt at this ⊢
    refine hd_congr this (fun t => ?_) ?_
    · simp only [antiIcingMass]
      congr 6
      funext j; fin_cases j <;> simp
    · rw [engineCountFactor_of_le (by decide)]
      simp [total, Fin.sum_univ_two]
  have := h1.unique h2
  rw [dAntiIcingDiam, engineCountFactor_of_le (by decide)] at this
  simp [diamFactorDeriv, total, Fin.sum_univ_two] at this

/-- `TransportStarterMass`: the partials are right when all engines are of the one type. -/
theorem starter_partials_partial {num : Fin n → ℕ} {tot : ℕ} (maxMach : ℝ) (diam ratio : Fin n → ℝ)
    (i : Fin n) (hd : ∀ j, 0 < diam j) (hr : ∀ j, 0 < ratio j) (htot : tot = total num)
    (hi : num i = total num) (hp : 0 < total num) :
    PartialAt (fun d => starterMass num tot maxMach d ratio) diam i
      (dStarterDiam num tot maxMach diam ratio i)
    ∧ PartialAt (fun r => starterMass num tot maxMach diam r) ratio i
      (dStarterRatio num tot maxMach diam ratio i) := by
  have hN : (0 : ℝ) < total num := Nat.cast_pos.mpr hp
  have hD := diamFactorDeriv_partial (num := num) (fun i => diam i * √(ratio i)) i (Or.inr ⟨hi, hp⟩)
  unfold PartialAt at hD
  have hA : 0 < avgDiam num (fun i => diam i * √(ratio i)) := by
    unfold avgDiam
    apply div_pos _ hN
    apply lt_of_lt_of_le (b := diam i * √(ratio i) * num i)
    · rw [hi]; exact mul_pos (mul_pos (hd i) (sqrt_pos.mpr (hr i))) hN
    · exact Finset.single_le_sum (f := fun j => diam j * √(ratio j) * (num j : ℝ))
        (fun j _ => mul_nonneg (mul_nonneg (hd j).le (sqrt_nonneg _)) (Nat.cast_nonneg _))
        (Finset.mem_univ i)
  have hf : diamFactor num (fun i => diam i * √(ratio i))
      = diamFactorDeriv num i * avgDiam num (fun i => diam i * √(ratio i)) := by
    unfold diamFactor diamFactorDeriv
    by_cases h4 : total num > 4
    · rw [if_pos h4, if_pos h4, hi]; field_simp
    · rw [if_neg h4, if_neg h4, one_mul]
  have hc : 0 < diamFactorDeriv num i := by
    unfold diamFactorDeriv
    by_cases h4 : total num > 4
    · rw [if_pos h4, hi]
      have := sqrt_pos.mpr hN
      positivity
    · rw [if_neg h4]; exact one_pos
  have hF : diamFactor num (fun i => diam i * √(ratio i)) ≠ 0 := by
    rw [hf]; exact (mul_pos hc hA).ne'
  have hexp : diamFactor num (fun i => diam i * √(ratio i)) ^ (16 / 10 : ℝ)
        / diamFactor num (fun i => diam i * √(ratio i)) * diamFactorDeriv num i
      = diamFactorDeriv num i ^ (16 / 10 : ℝ)
        * ((∑ j, diam j * √(ratio j) * num j) / total num) ^ (6 / 10 : ℝ) := by
    have e1 : (∑ j, diam j * √(ratio j) * (num j : ℝ)) / total num
        = avgDiam num (fun i => diam i * √(ratio i)) := rfl
    rw [e1, ← rpow_sub_one hF, hf, mul_rpow hc.le hA.le,
      show (16 / 10 - 1 : ℝ) = 6 / 10 by norm_num,
      show (16 / 10 : ℝ) = 6 / 10 + 1 by norm_num, rpow_add_one hc.ne']
    ring
  have pw : HasDerivAt (fun z => 11 * engineCountFactor tot * maxMach ^ (32 / 100 : ℝ)
        * z ^ (16 / 10 : ℝ))
      (11 * engineCountFactor tot * maxMach ^ (32 / 100 : ℝ)
        * (1 * (16 / 10) * (diamFactor num (fun i => diam i * √(ratio i)) ^ (16 / 10 : ℝ)
            / diamFactor num (fun i => diam i * √(ratio i)))))
      (diamFactor num (fun i => diam i * √(ratio i))) :=
    (hasDerivAt_rpowd (hasDerivAt_id _) hF).const_mul _
  have hup : Function.update (fun i => diam i * √(ratio i)) i (diam i * √(ratio i))
      = fun i => diam i * √(ratio i) := Function.update_eq_self _ _
  subst htot
  constructor
  · have h1 : HasDerivAt (fun t => t * √(ratio i)) (√(ratio i)) (diam i) := by
      simpa using (hasDerivAt_id (diam i)).mul_const (√(ratio i))
    have h2 := HasDerivAt.comp (diam i) hD h1
    have h3 := HasDerivAt.comp (diam i) (by
      simp only [Function.comp, hup]; exact pw) h2
    unfold PartialAt
    refine hd_congr h3 (fun t => ?_) ?_
    · simp only [starterMass, Function.comp]
      congr 3
      funext j
      by_cases hj : j = i
      · subst hj; simp
      · simp [Function.update_of_ne hj]
    · unfold dStarterDiam
      linear_combination (-(11 * (16 / 10) * engineCountFactor (total num)
        * maxMach ^ (32 / 100 : ℝ) * √(ratio i))) * hexp
  · have h1 : HasDerivAt (fun t => diam i * √t) (diam i * (1 / (2 * √(ratio i)))) (ratio i) :=
      (hasDerivAt_sqrt (hr i).ne').const_mul (diam i)
    have h2 := HasDerivAt.comp (ratio i) hD h1
    have h3 := HasDerivAt.comp (ratio i) (by
      simp only [Function.comp, hup]; exact pw) h2
    unfold PartialAt
    refine hd_congr h3 (fun t => ?_) ?_
    · simp only [starterMass, Function.comp]
      congr 3
      funext j
      by_cases hj : j = i
      · subst hj; simp
      · simp [Function.update_of_ne hj]
    · unfold dStarterRatio
      linear_combination (-(176 / 10 * engineCountFactor (total num)
        * maxMach ^ (32 / 100 : ℝ) * (diam i * (1 / 2) / √(ratio i)))) * hexp

example : (∀ j : Fin 1, 0 < ![(7 : ℝ)] j) ∧ ![6] (0 : Fin 1) = total (n := 1) ![6]
    ∧ 0 < total (n := 1) ![6] := by
  refine ⟨by intro j; fin_cases j; simp, by simp [total], by simp [total]⟩

/-- With one engine of each of two types the partial is not the derivative. -/
theorem starter_partials_violated :
    ¬ ∀ (num : Fin 2 → ℕ) (maxMach : ℝ) (diam ratio : Fin 2 → ℝ) (i : Fin 2),
      (∀ j, 0 < num j) → (∀ j, 0 < diam j) → (∀ j, 0 < ratio j) →
      PartialAt (fun d => starterMass num (total num) maxMach d ratio) diam i
        (dStarterDiam num (total num) maxMach diam ratio i) := by
  intro h
  have h1 := h ![1, 1] 1 ![1, 1] ![1, 1] 0 (by decide)
    (by intro j; fin_cases j <;> simp) (by intro j; fin_cases j <;> simp)
  have hF : diamFactor ![1, 1] ![1, 1] = 1 := by
    simp [diamFactor, avgDiam, total, Fin.sum_univ_two]
  have h2 : PartialAt (fun d => starterMass ![1, 1] (total ![1, 1]) 1 d ![1, 1]) ![1, 1] 0
      (176 / 10) := by
    have := (diamFactor_partial ![1, 1] ![1, 1] 0).comp
      (g := fun z => 11 * engineCountFactor (total ![1, 1]) * (1 : ℝ) ^ (32 / 100 : ℝ)
        * z ^ (16 / 10 : ℝ))
      (g' := 11 * engineCountFactor (total ![1, 1]) * (1 : ℝ) ^ (32 / 100 : ℝ)
        * (1 * (16 / 10) * ((1 : ℝ) ^ (16 / 10 : ℝ) / 1))) (by
        rw [hF]
        exact (hasDerivAt_rpowd (hasDerivAt_id (1 : ℝ)) one_ne_zero).const_mul _)
    unfold PartialAt at this ⊢
    refine hd_congr this (fun t => ?_) ?_
    · simp only [starterMass]
      congr 3
      funext j; fin_cases j <;> simp
    · rw [engineCountFactor_of_le (by decide)]
      simp [total, Fin.sum_univ_two]; norm_num
  have := h1.unique h2
  rw [dStarterDiam, engineCountFactor_of_le (by decide)] at this
  norm_num [diamFactorDeriv, total, Fin.sum_univ_two] at this

/-! ### Nacelles -/

/-- Not a blended wing body: over all engines of a type the nacelle masses sum to the FLOPS formula
with the nacelle count. -/
theorem nacelleSum_partial (num wing : Fin n → ℕ) (diam length T scaler : Fin n → ℝ)
    (hn : ∀ i, 0 < num i) :
    nacelleSum num (fun i => nacelleMass false (num i) (wing i) (diam i) (length i) (T i) (scaler i))
      = ∑ i, 1 / 4 * nacelleCount (num i) * diam i * length i * T i ^ (36 / 100 : ℝ) * scaler i := by
  unfold nacelleSum
  refine Finset.sum_congr rfl fun i _ => ?_
  have : (0 : ℝ) < num i := Nat.cast_pos.mpr (hn i)
  unfold nacelleMass nacelleFactor
  simp only [Bool.false_eq_true, if_false]
  field_simp

/-- For a blended wing body the factor is not divided by the number of engines before the sum over
the engines: with two engines on the wing the nacelles count four times. -/
theorem nacelleSum_bwb_violated :
    ¬ ∀ (k wing : ℕ) (diam length T scaler : ℝ), 0 < k →
      nacelleSum (n := 1) (fun _ => k)
        (fun _ => nacelleMass true k wing diam length T scaler)
      = 1 / 4 * wing * diam * length * T ^ (36 / 100 : ℝ) * scaler := by
  intro h
  have := h 2 2 1 1 1 1 (by norm_num)
  norm_num [nacelleSum, nacelleMass, nacelleFactor] at this

/-- For any number of engines of a blended wing body the sum is the FLOPS value times the number of
engines. -/
theorem nacelleSum_bwb (k wing : ℕ) (diam length T scaler : ℝ) :
    nacelleSum (n := 1) (fun _ => k) (fun _ => nacelleMass true k wing diam length T scaler)
      = k * (1 / 4 * wing * diam * length * T ^ (36 / 100 : ℝ) * scaler) := by
  simp [nacelleSum, nacelleMass, nacelleFactor]; ring

theorem nacelleArea_partials (k : ℕ) (scaler diam length scale : ℝ) :
    HasDerivAt (fun t => nacelleArea k scaler diam t scale) (dAreaLength k scaler diam scale) length
    ∧ HasDerivAt (fun t => nacelleArea k scaler t length scale) (dAreaDiam k scaler length scale) diam
    ∧ HasDerivAt (fun t => nacelleArea k t diam length scale) (dAreaScaler k diam length scale) scaler
    ∧ HasDerivAt (fun t => nacelleArea k scaler diam length t) (dAreaScale k scaler diam length)
      scale := by
  have lin : ∀ (f : ℝ → ℝ) (d x : ℝ), (∀ t, f t = t * d) → HasDerivAt f d x := by
    intro f d x h
    have : f = fun t => t * d := funext h
    rw [this]; simpa using (hasDerivAt_id x).mul_const d
  by_cases hk : k ≥ 1
  · refine ⟨?_, ?_, ?_, ?_⟩ <;> 
      (apply lin
       intro t
       simp only [nacelleArea, dAreaLength, dAreaDiam, dAreaScaler, dAreaScale, hk, if_true]
       ring)
  · refine ⟨?_, ?_, ?_, ?_⟩ <;> 
      (apply lin
       intro t
       simp only [nacelleArea, dAreaLength, dAreaDiam, dAreaScaler, dAreaScale, hk, if_false]
       ring)

/-- The total wetted area counts each nacelle of each type, and its partial by the area of type `i`
is the number of engines of the type. -/
theorem totalNacelleArea_partial (num : Fin n → ℕ) (area : Fin n → ℝ) (i : Fin n) :
    PartialAt (totalNacelleArea num) area i (num i) :=
  partialAt_sum (fun j t => (num j : ℝ) * t) area i
    (by simpa using (hasDerivAt_id (area i)).const_mul (num i : ℝ))

/-- A type without engines adds nothing to the total area. -/
theorem nacelleArea_none (scaler diam length scale : ℝ) :
    nacelleArea 0 scaler diam length scale = 0 := by simp [nacelleArea]

/-! ### Fuel system -/

theorem fuelSystem_capacity_partial {tot : ℕ} (maxMach scaler : ℝ) {capacity : ℝ}
    (hc : 0 < capacity) (h4 : tot ≤ 4) :
    HasDerivAt (fun c => fuelSystemMass tot maxMach scaler c)
      (dFuelSystemCapacity tot maxMach scaler capacity) capacity := by
  unfold fuelSystemMass dFuelSystemCapacity
  rw [engineCountFactor_of_le h4]
  have h := ((((hasDerivAt_id capacity).rpow_const (p := (58 / 100 : ℝ)) (Or.inl hc.ne')).const_mul
    (107 / 100 : ℝ)).mul_const ((tot : ℝ) ^ (43 / 100 : ℝ))).mul_const (maxMach ^ (34 / 100 : ℝ))
    |>.mul_const scaler
  refine hd_congr h (fun t => ?_) ?_
  · rfl
  · rw [show (-(42 / 100) : ℝ) = 58 / 100 - 1 by norm_num]
    simp only [id]; ring

/-- With five engines the partial uses 5 in place of the factor. -/
theorem fuelSystem_capacity_violated :
    ¬ ∀ (tot : ℕ) (maxMach scaler capacity : ℝ), 0 < capacity → 0 < maxMach →
      HasDerivAt (fun c => fuelSystemMass tot maxMach scaler c)
        (dFuelSystemCapacity tot maxMach scaler capacity) capacity := by
  intro h
  have h1 := h 5 1 1 1 one_pos one_pos
  have h2 : HasDerivAt (fun c => fuelSystemMass 5 1 1 c)
      (6206 / 10000 * engineCountFactor 5 ^ (43 / 100 : ℝ)) 1 := by
    have h := ((((hasDerivAt_id (1 : ℝ)).rpow_const (p := (58 / 100 : ℝ))
      (Or.inl one_ne_zero)).const_mul (107 / 100 : ℝ)).mul_const
      (engineCountFactor 5 ^ (43 / 100 : ℝ))).mul_const ((1 : ℝ) ^ (34 / 100 : ℝ)) |>.mul_const 1
    unfold fuelSystemMass
    refine hd_congr h (fun t => ?_) ?_
    · rfl
    norm_num
  have h3 := h1.unique h2
  simp only [dFuelSystemCapacity, one_rpow, mul_one] at h3
  have h4 : engineCountFactor 5 ^ (43 / 100 : ℝ) < ((5 : ℕ) : ℝ) ^ (43 / 100 : ℝ) :=
    rpow_lt_rpow (by
      have := engineCountFactor_strictMono (show 0 < 5 by norm_num)
      rw [engineCountFactor_of_le (k := 0) (by norm_num)] at this
      simpa using this.le) (engineCountFactor_lt_self (by norm_num)) (by norm_num)
  linarith

/-! ### Main landing gear -/

theorem diamFactor1_deriv (k : ℕ) (d : ℝ) :
    HasDerivAt (diamFactor1 k) (diamFactorDeriv1 k) d := by
  unfold diamFactor1 diamFactorDeriv1
  by_cases h : k > 4
  · simp only [h, if_true]
    have hk : (k : ℝ) ≠ 0 := by positivity
    have := ((hasDerivAt_id d).const_mul (1 / 2 : ℝ)).mul_const (√(k : ℝ))
    refine hd_congr this (fun t => ?_) ?_
    · rfl
    field_simp
  · simp only [h, if_false]
    exact hasDerivAt_id d

/-- The gear is never shorter than a foot unless the fuselage rule gives less. -/
theorem mainGear_ge (k wing : ℕ) (g : GearIn) :
    mainGear k wing g = 75 / 100 * g.fuselageLength ∨ 12 ≤ mainGear k wing g := by
  unfold mainGear
  split
  · exact Or.inl rfl
  · next h => exact Or.inr (not_lt.mp h)

/-- Without engines on the wing the length follows from the fuselage. -/
theorem mainGear_no_wing_engine (k : ℕ) (g : GearIn) :
    mainGear k 0 g = 75 / 100 * g.fuselageLength := by
  simp [mainGear, gearRaw]

/-- If the raw value is not exactly 12 and moves continuously with an input, then near the point the
branch does not change. -/
theorem mainGear_deriv {k wing : ℕ} (gf : ℝ → GearIn) {x d : ℝ}
    (hr : HasDerivAt (fun t => gearRaw k wing (gf t)) d x) (h12 : gearRaw k wing (gf x) ≠ 12)
    {e : ℝ} (hl : HasDerivAt (fun t => (gf t).fuselageLength) e x) :
    HasDerivAt (fun t => mainGear k wing (gf t))
      (if gearRaw k wing (gf x) < 12 then 75 / 100 * e else d) x := by
  rcases lt_or_gt_of_ne h12 with h | h
  · rw [if_pos h]
    refine (hl.const_mul (75 / 100 : ℝ)).congr_of_eventuallyEq ?_
    filter_upwards [hr.continuousAt.tendsto.eventually_lt_const h] with t ht
    simp only [mainGear, if_pos ht]
  · rw [if_neg (not_lt.mpr h.le)]
    refine hr.congr_of_eventuallyEq ?_
    filter_upwards [hr.continuousAt.tendsto.eventually_const_lt h] with t ht
    simp only [mainGear, if_neg (not_lt.mpr ht.le)]

/-- All partials of `MainGearLength` but that by the span, for inputs away from the switches. -/
theorem mainGear_partials (k wing : ℕ) (g : GearIn) (h12 : gearRaw k wing g ≠ 12)
    (h1 : g.location ≠ 1) (hc : cos (g.dihedral * (π / 180)) ≠ 0) :
    HasDerivAt (fun t => mainGear k wing { g with fuselageLength := t }) (dGearLength k wing g)
      g.fuselageLength
    ∧ HasDerivAt (fun t => mainGear k wing { g with width := t }) (dGearWidth k wing g) g.width
    ∧ HasDerivAt (fun t => mainGear k wing { g with diam := t }) (dGearDiam k wing g) g.diam
    ∧ HasDerivAt (fun t => mainGear k wing { g with location := t }) (dGearLocation k wing g)
      g.location
    ∧ HasDerivAt (fun t => mainGear k wing { g with dihedral := t }) (dGearDihedral k wing g)
      g.dihedral := by
  by_cases hw : wing > 0
  swap
  · have hraw : ∀ g, gearRaw k wing g = 0 := fun g => by simp [gearRaw, hw]
    have hm : ∀ g, mainGear k wing g = 75 / 100 * g.fuselageLength := fun g => by
      simp [mainGear, hraw]
    simp only [hm, dGearLength, dGearWidth, dGearDiam, dGearLocation, dGearDihedral, hraw]
    norm_num
    refine ⟨?_, hasDerivAt_const _ _, hasDerivAt_const _ _, hasDerivAt_const _ _,
      hasDerivAt_const _ _⟩
    simpa using (hasDerivAt_id g.fuselageLength).const_mul (3 / 4 : ℝ)
  have hraw : ∀ g, gearRaw k wing g = 12 * diamFactor1 k g.diam
      + (26 / 100 - tan (g.dihedral * (π / 180))) * (engineY g - g.width * 6) := fun g => by
    simp [gearRaw, hw]
  refine ⟨?_, ?_, ?_, ?_, ?_⟩
  · have := mainGear_deriv (k := k) (wing := wing) (fun t => { g with fuselageLength := t })
      (x := g.fuselageLength) (d := 0) (by
        simp only [hraw, engineY]; exact hasDerivAt_const _ _) h12 (e := 1) (hasDerivAt_id _)
    simpa [dGearLength] using this
  · have := mainGear_deriv (k := k) (wing := wing) (fun t => { g with width := t })
      (x := g.width) (d := (tan (g.dihedral * (π / 180)) - 26 / 100) * 6) (by
        simp only [hraw, engineY]
        have := ((((hasDerivAt_id g.width).mul_const (6 : ℝ)).const_sub (engineY g)).const_mul
          (26 / 100 - tan (g.dihedral * (π / 180)))).const_add (12 * diamFactor1 k g.diam)
        refine hd_congr this (fun t => ?_) ?_
        · rfl
        ring) h12 (e := 0) (hasDerivAt_const _ _)
    simpa [dGearWidth] using this
  · have := mainGear_deriv (k := k) (wing := wing) (fun t => { g with diam := t })
      (x := g.diam) (d := 12 * diamFactorDeriv1 k) (by
        simp only [hraw, engineY]
        exact ((diamFactor1_deriv k g.diam).const_mul 12).add_const _) h12 (e := 0)
        (hasDerivAt_const _ _)
    simpa [dGearDiam] using this
  · have hy : HasDerivAt (fun t => engineY { g with location := t })
        (if g.location < 1 then 6 * g.span else 1) g.location := by
      rcases lt_or_gt_of_ne h1 with h | h
      · rw [if_pos h]
        have : HasDerivAt (fun t => t * (6 * g.span)) (6 * g.span) g.location := by
          simpa using (hasDerivAt_id g.location).mul_const (6 * g.span)
        refine this.congr_of_eventuallyEq ?_
        filter_upwards [eventually_lt_nhds h] with t ht
        simp only [engineY, if_pos ht]
      · rw [if_neg (not_lt.mpr h.le)]
        refine (hasDerivAt_id g.location).congr_of_eventuallyEq ?_
        filter_upwards [eventually_gt_nhds h] with t ht
        simp only [engineY, if_neg (not_lt.mpr ht.le), id]
    have := mainGear_deriv (k := k) (wing := wing) (fun t => { g with location := t })
      (x := g.location) (by
        simp only [hraw]
        exact ((hy.sub_const (g.width * 6)).const_mul
          (26 / 100 - tan (g.dihedral * (π / 180)))).const_add _) h12 (e := 0)
        (hasDerivAt_const _ _)
    simpa [dGearLocation] using this
  · have ht : HasDerivAt (fun t => tan (t * (π / 180)))
        (1 * (π / 180) * (1 / cos (g.dihedral * (π / 180)) ^ 2)) g.dihedral :=
      hasDerivAt_tand ((hasDerivAt_id g.dihedral).mul_const (π / 180)) hc
    have := mainGear_deriv (k := k) (wing := wing) (fun t => { g with dihedral := t })
      (x := g.dihedral) (by
        simp only [hraw]
        exact ((ht.const_sub (26 / 100)).mul_const (engineY g - g.width * 6)).const_add _) h12
        (e := 0) (hasDerivAt_const _ _)
    refine hd_congr this (fun t => ?_) ?_
    · rfl
    unfold dGearDihedral
    split
    · simp
    · field_simp

/-- The partial by the span is right where the engine location is a fraction of the span, or the
fuselage decides the length. -/
theorem mainGear_span_partial (k wing : ℕ) (g : GearIn) (h12 : gearRaw k wing g ≠ 12)
    (h : g.location < 1 ∨ gearRaw k wing g < 12) :
    HasDerivAt (fun t => mainGear k wing { g with span := t }) (dGearSpan k wing g) g.span := by
  by_cases hw : wing > 0
  swap
  · have hraw : ∀ g, gearRaw k wing g = 0 := fun g => by simp [gearRaw, hw]
    have hm : ∀ g, mainGear k wing g = 75 / 100 * g.fuselageLength := fun g => by
      simp [mainGear, hraw]
    simp only [hm, dGearSpan, hraw]
    norm_num
    exact hasDerivAt_const _ _
  have hraw : ∀ g, gearRaw k wing g = 12 * diamFactor1 k g.diam
      + (26 / 100 - tan (g.dihedral * (π / 180))) * (engineY g - g.width * 6) := fun g => by
    simp [gearRaw, hw]
  have hy : HasDerivAt (fun t => engineY { g with span := t })
      (if g.location < 1 then g.location * 6 else 0) g.span := by
    by_cases hl : g.location < 1
    · simp only [engineY, if_pos hl]
      have := ((hasDerivAt_id g.span).const_mul (6 : ℝ)).const_mul g.location
      simpa using this
    · simp only [engineY, if_neg hl]
      exact hasDerivAt_const _ _
  have := mainGear_deriv (k := k) (wing := wing) (fun t => { g with span := t })
    (x := g.span) (by
      simp only [hraw]
      exact ((hy.sub_const (g.width * 6)).const_mul
        (26 / 100 - tan (g.dihedral * (π / 180)))).const_add _) h12 (e := 0)
      (hasDerivAt_const _ _)
  refine hd_congr this (fun t => ?_) ?_
  · rfl
  unfold dGearSpan
  rcases h with h | h
  · simp only [if_pos h]
    split
    · simp
    · ring
  · simp only [if_pos h]; simp

/-- With the location given in inches the span has no influence, but the partial says it has. -/
theorem mainGear_span_violated :
    ¬ ∀ (k wing : ℕ) (g : GearIn), gearRaw k wing g ≠ 12 → g.location ≠ 1 →
      cos (g.dihedral * (π / 180)) ≠ 0 →
      HasDerivAt (fun t => mainGear k wing { g with span := t }) (dGearSpan k wing g) g.span := by
  intro h
  have hraw : ∀ t, gearRaw 2 2 ⟨100, 0, 10, 100, 0, t⟩ = 146 := by
    intro t; norm_num [gearRaw, diamFactor1, engineY]
  have h1 := h 2 2 ⟨100, 0, 10, 100, 0, 100⟩ (by rw [hraw]; norm_num) (by norm_num) (by simp)
  have h2 : HasDerivAt (fun t => mainGear 2 2 ⟨100, 0, 10, 100, 0, t⟩) 0 100 := by
    have : (fun t => mainGear 2 2 ⟨100, 0, 10, 100, 0, t⟩) = fun _ => 146 := by
      funext t; norm_num [mainGear, hraw]
    rw [this]; exact hasDerivAt_const _ _
  have := h1.unique h2
  rw [dGearSpan, hraw] at this
  norm_num at this

/-- An aircraft with two engines at 30 % of a 100 ft span meets the conditions. -/
example : gearRaw 2 2 ⟨120, 12, 7, 3 / 10, 0, 100⟩ ≠ 12 ∧ (3 / 10 : ℝ) ≠ 1
    ∧ cos ((0 : ℝ) * (π / 180)) ≠ 0 := by
  refine ⟨?_, by norm_num, by simp⟩
  norm_num [gearRaw, diamFactor1, engineY]

end Verif.EngineTypes
