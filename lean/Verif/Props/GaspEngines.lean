import Verif.Model.GaspEngines
import Mathlib.Tactic.LinearCombination
import Mathlib.Tactic.NormNum
import Mathlib.Analysis.Calculus.Deriv.Basic

/-! # GASP components with one entry per engine type -/

namespace Verif.GaspEngines
open Real

variable {n m : ℕ}

/-! ## C93 GASP masses of the engine types -/

/-! ### Engine, nacelle and pylon -/

/-- Partials of the total engine mass, aviary/subsystems/mass/gasp_based/engine.py:127-128, 157-160. -/
theorem totalEngineMass_partials (num : Fin n → ℕ) (spec thrust : Fin n → ℝ) (i : Fin n) :
    PartialAt (fun s => totalEngineMass num s thrust) spec i (num i * thrust i)
    ∧ PartialAt (fun t => totalEngineMass num spec t) thrust i (num i * spec i) := by
  constructor
  · exact partialAt_sum (fun j t => dryMass t (thrust j) * num j) spec i
      (affine_deriv fun t => by simp [dryMass]; ring)
  · exact partialAt_sum (fun j t => dryMass (spec j) t * num j) thrust i
      (affine_deriv fun t => by simp [dryMass]; ring)

/-- Partials of the nacelle mass of type `j`, aviary/subsystems/mass/gasp_based/engine.py:129, 136, 162-164, 171-173. -/
theorem nacelleMass_partials (scaler spec area : Fin n → ℝ) (i j : Fin n) :
    PartialAt (fun s => nacelleMass (scaler j) (s j) (area j)) spec i
      (if j = i then scaler i * area i else 0)
    ∧ PartialAt (fun a => nacelleMass (scaler j) (spec j) (a j)) area i
      (if j = i then scaler i * spec i else 0)
    ∧ PartialAt (fun c => nacelleMass (c j) (spec j) (area j)) scaler i
      (if j = i then spec i * area i else 0) := by
  refine ⟨partialAt_entry (fun j t => nacelleMass (scaler j) t (area j)) spec i j ?_,
    partialAt_entry (fun j t => nacelleMass (scaler j) (spec j) t) area i j ?_,
    partialAt_entry (fun j t => nacelleMass t (spec j) (area j)) scaler i j ?_⟩ <;>
  exact affine_deriv fun t => by simp [nacelleMass]; try ring

theorem pylon_aux {factor w d : ℝ} (g : ℝ → ℝ) {x : ℝ} (hg : HasDerivAt g d x) (hw : g x = w)
    (hp : 0 < w) :
    HasDerivAt (fun t => factor * g t ^ (736 / 1000 : ℝ))
      (736 / 1000 * factor * w ^ (-(264 / 1000) : ℝ) * d) x := by
  have h := (hg.rpow_const (p := (736 / 1000 : ℝ)) (Or.inl (by rw [hw]; exact hp.ne'))).const_mul
    factor
  refine hd_congr h (fun t => rfl) ?_
  rw [hw, show (736 / 1000 - 1 : ℝ) = -(264 / 1000) by norm_num]; ring

/-- The partials of the pylon mass by the pylon factor, the specific engine mass, the thrust and the
nacelle mass scaler are right wherever engine and nacelle weigh something. -/
theorem pylon_partials (factor es T c ns a : ℝ) (hp : 0 < es * T + c * ns * a) :
    HasDerivAt (fun t => pylonMass t es T c ns a) (dPylonFactor es T c ns a) factor
    ∧ HasDerivAt (fun t => pylonMass factor t T c ns a) (dPylonEngSpec factor es T c ns a) es
    ∧ HasDerivAt (fun t => pylonMass factor es t c ns a) (dPylonThrust factor es T c ns a) T
    ∧ HasDerivAt (fun t => pylonMass factor es T t ns a) (dPylonScaler factor es T c ns a) c := by
  refine ⟨?_, ?_, ?_, ?_⟩
  · exact affine_deriv fun t => by
      simp [pylonMass, dPylonFactor, dryMass, nacelleMass]; ring
  · refine hd_congr (pylon_aux (factor := factor) (fun t => t * T + c * ns * a) (x := es) (d := T)
      (affine_deriv fun t => by ring) rfl hp) (fun t => rfl) ?_
    simp only [dPylonEngSpec, pylonPow]
  · refine hd_congr (pylon_aux (factor := factor) (fun t => es * t + c * ns * a) (x := T) (d := es)
      (affine_deriv fun t => by ring) rfl hp) (fun t => rfl) ?_
    simp only [dPylonThrust, pylonPow]; ring
  · refine hd_congr (pylon_aux (factor := factor) (fun t => es * T + t * ns * a) (x := c)
      (d := ns * a) (affine_deriv fun t => by ring) rfl hp) (fun t => rfl) ?_
    simp only [dPylonScaler, pylonPow]; ring

/-- The true partials by specific nacelle mass and nacelle area: the coded ones times the scaler. -/
theorem pylon_nacelle (factor es T c ns a : ℝ) (hp : 0 < es * T + c * ns * a) :
    HasDerivAt (fun t => pylonMass factor es T c t a) (c * dPylonNacSpec factor es T c ns a) ns
    ∧ HasDerivAt (fun t => pylonMass factor es T c ns t) (c * dPylonArea factor es T c ns a) a := by
  constructor
  · refine hd_congr (pylon_aux (factor := factor) (fun t => es * T + c * t * a) (x := ns)
      (d := c * a) (affine_deriv fun t => by ring) rfl hp) (fun t => rfl) ?_
    simp only [dPylonNacSpec, pylonPow]; ring
  · refine hd_congr (pylon_aux (factor := factor) (fun t => es * T + c * ns * t) (x := a)
      (d := c * ns) (affine_deriv fun t => by ring) rfl hp) (fun t => rfl) ?_
    simp only [dPylonArea, pylonPow]; ring

/-- With the scaler 1 the coded partials are right. -/
theorem pylon_nacelle_partial (factor es T ns a : ℝ) (hp : 0 < es * T + 1 * ns * a) :
    HasDerivAt (fun t => pylonMass factor es T 1 t a) (dPylonNacSpec factor es T 1 ns a) ns
    ∧ HasDerivAt (fun t => pylonMass factor es T 1 ns t) (dPylonArea factor es T 1 ns a) a := by
  simpa using pylon_nacelle factor es T 1 ns a hp

example : (0 : ℝ) < 1 / 5 * 28690 + 1 * 3 * 340 := by norm_num

/-- With another scaler they are not. -/
theorem pylon_nacelle_violated :
    (¬ ∀ factor es T c ns a : ℝ, 0 < es * T + c * ns * a →
      HasDerivAt (fun t => pylonMass factor es T c t a) (dPylonNacSpec factor es T c ns a) ns)
    ∧ ¬ ∀ factor es T c ns a : ℝ, 0 < es * T + c * ns * a →
      HasDerivAt (fun t => pylonMass factor es T c ns t) (dPylonArea factor es T c ns a) a := by
  constructor
  · intro h
    have h1 := h 1 0 0 (1 / 2) 1 2 (by norm_num)
    have h2 := (pylon_nacelle 1 0 0 (1 / 2) 1 2 (by norm_num)).1
    have := h1.unique h2
    norm_num [dPylonNacSpec, pylonPow] at this
  · intro h
    have h1 := h 1 0 0 (1 / 2) 2 1 (by norm_num)
    have h2 := (pylon_nacelle 1 0 0 (1 / 2) 2 1 (by norm_num)).2
    have := h1.unique h2
    norm_num [dPylonArea, pylonPow] at this

/-! ### Pods and combined engine mass -/

/-- Partials of `EnginePodMass`, aviary/subsystems/mass/gasp_based/engine.py:253-262. -/
theorem pod_partials (num : Fin n → ℕ) (ck14 nac pyl : Fin n → ℝ) (i j : Fin n) :
    PartialAt (fun x => podMass (x j) (pyl j)) nac i (if j = i then 1 else 0)
    ∧ PartialAt (fun x => podMass (nac j) (x j)) pyl i (if j = i then 1 else 0)
    ∧ PartialAt (fun x => totalPodMass num ck14 x pyl) nac i (ck14 i * num i)
    ∧ PartialAt (fun x => totalPodMass num ck14 nac x) pyl i (ck14 i * num i)
    ∧ PartialAt (fun x => totalPodMass num x nac pyl) ck14 i (podMass (nac i) (pyl i) * num i) := by
  refine ⟨partialAt_entry (fun j t => podMass t (pyl j)) nac i j ?_,
    partialAt_entry (fun j t => podMass (nac j) t) pyl i j ?_,
    partialAt_sum (fun j t => ck14 j * podMass t (pyl j) * num j) nac i ?_,
    partialAt_sum (fun j t => ck14 j * podMass (nac j) t * num j) pyl i ?_,
    partialAt_sum (fun j t => t * podMass (nac j) (pyl j) * num j) ck14 i ?_⟩ <;>
  exact affine_deriv fun t => by simp [podMass]; try ring

/-- With all scalers 1 the total is the sum of the pods of all engines. -/
theorem totalPodMass_one (num : Fin n → ℕ) (nac pyl : Fin n → ℝ) :
    totalPodMass num (fun _ => 1) nac pyl = ∑ i, num i * podMass (nac i) (pyl i) := by
  unfold totalPodMass
  exact Finset.sum_congr rfl fun i _ => by ring

/-- The combined mass is the scaled dry engines, the scaled installation
(CK5·WEP + CK7·WPEI of GASP) and the augmentation, when the additional mass is that of
`AdditionalEngineMass`. -/
theorem engCombMass_gasp (num : Fin n → ℕ) (ck5 spec thrust frac : Fin n → ℝ) (ck7 aug : ℝ) :
    engCombMass num ck5 spec thrust
        (fun i => additionalMass ck7 (frac i) (spec i) (thrust i)) aug
      = ∑ i, (ck5 i + ck7 * frac i) * (num i * (spec i * thrust i)) + aug := by
  unfold engCombMass additionalMass dryMass
  rw [← Finset.sum_add_distrib]
  congr 1
  exact Finset.sum_congr rfl fun i _ => by ring

/-- Partials of `eng_comb_mass` and `prop_mass_sum`, aviary/subsystems/mass/gasp_based/engine.py:519-528, 574-575. -/
theorem engComb_partials (num : Fin n → ℕ) (ck5 spec thrust addtl prop : Fin n → ℝ) (aug : ℝ)
    (i : Fin n) :
    PartialAt (fun x => engCombMass num x spec thrust addtl aug) ck5 i
      (spec i * thrust i * num i)
    ∧ PartialAt (fun x => engCombMass num ck5 x thrust addtl aug) spec i
      (ck5 i * num i * thrust i)
    ∧ PartialAt (fun x => engCombMass num ck5 spec x addtl aug) thrust i
      (ck5 i * num i * spec i)
    ∧ PartialAt (fun x => engCombMass num ck5 spec thrust x aug) addtl i (num i)
    ∧ HasDerivAt (fun t => engCombMass num ck5 spec thrust addtl t) 1 aug
    ∧ PartialAt (fun x => propMassSum num x) prop i (num i) := by
  have ac : ∀ c c' x : ℝ, HasDerivAt (fun z => z + c + c') 1 x := fun c c' x =>
    affine_deriv fun t => by ring
  have ac' : ∀ c c' x : ℝ, HasDerivAt (fun z => c + z + c') 1 x := fun c c' x =>
    affine_deriv fun t => by ring
  refine ⟨?_, ?_, ?_, ?_, ?_, ?_⟩
  · have h := (partialAt_sum (fun j t => t * (dryMass (spec j) (thrust j) * num j)) ck5 i
      (d := spec i * thrust i * num i) (affine_deriv fun t => by simp [dryMass]; ring)).comp
      (ac (∑ i, addtl i * num i) aug _)
    exact hd_congr h (fun t => rfl) (one_mul _).symm
  · have h := (partialAt_sum (fun j t => ck5 j * (dryMass t (thrust j) * num j)) spec i
      (d := ck5 i * num i * thrust i) (affine_deriv fun t => by simp [dryMass]; ring)).comp
      (ac (∑ i, addtl i * num i) aug _)
    exact hd_congr h (fun t => rfl) (one_mul _).symm
  · have h := (partialAt_sum (fun j t => ck5 j * (dryMass (spec j) t * num j)) thrust i
      (d := ck5 i * num i * spec i) (affine_deriv fun t => by simp [dryMass]; ring)).comp
      (ac (∑ i, addtl i * num i) aug _)
    exact hd_congr h (fun t => rfl) (one_mul _).symm
  · have h := (partialAt_sum (fun j t => t * (num j : ℝ)) addtl i
      (d := num i) (affine_deriv fun t => by ring)).comp
      (ac' (∑ i, ck5 i * (dryMass (spec i) (thrust i) * num i)) aug _)
    exact hd_congr h (fun t => rfl) (one_mul _).symm
  · exact affine_deriv fun t => by simp [engCombMass]; ring
  · exact partialAt_sum (fun j t => t * (num j : ℝ)) prop i (affine_deriv fun t => by ring)

/-! ### Mass mounted on the wing -/

theorem spanFactor_lt_one {y : ℝ} (h : 0 ≤ y) : spanFactor y < 1 := by
  unfold spanFactor
  rw [div_lt_one (by linarith)]; linarith

theorem startIdx_zero (num : Fin (n + 1) → ℕ) : startIdx num 0 = 0 := by
  simp [startIdx]

/-- One engine type with two engines and one location gives GASP's formula
WM = YP/(YP+.001)·(all engines) + WMG·YMG/(YMG+.001). -/
theorem wingMounted_one_pair (loc : Fin 1 → ℝ) (e : Fin 1 → EngIn) (ck7 gear gearLoc : ℝ) :
    wingMounted ![2] loc e ck7 gear gearLoc
      = loc 0 / (loc 0 + 1 / 1000) * (2 * (e 0).onWing ck7)
        + gear * gearLoc / (gearLoc + 1 / 1000) := by
  simp [wingMounted, spanSum, inSlice, startIdx_zero, spanFactor]
  left; ring

/-- One engine type, any number of engines and at most that many locations: the mass of *all*
engines is taken once for *each* location. -/
theorem wingMounted_one_type (k : ℕ) (loc : Fin m → ℝ) (hm : m ≤ k) (e : Fin 1 → EngIn)
    (ck7 gear gearLoc : ℝ) :
    wingMounted ![k] loc e ck7 gear gearLoc
      = (∑ l, spanFactor (loc l)) * (k * (e 0).onWing ck7)
        + gear * gearLoc / (gearLoc + 1 / 1000) := by
  have hs : spanSum ![k] loc 0 = ∑ l, spanFactor (loc l) := by
    unfold spanSum
    refine Finset.sum_congr rfl fun l _ => ?_
    have hl := l.2
    rw [if_pos]
    refine ⟨?_, ?_⟩
    · rw [startIdx_zero]; exact Nat.zero_le _
    · rw [startIdx_zero]; simp; omega
  simp only [wingMounted, Fin.sum_univ_one, hs]
  simp
  left; ring

/-- So with one pair of engines the mass on the wing never exceeds that of engines and gear … -/
theorem wingMounted_le_partial (loc : Fin 1 → ℝ) (e : Fin 1 → EngIn) (ck7 gear gearLoc : ℝ)
    (hl : 0 ≤ loc 0) (he : 0 ≤ (e 0).onWing ck7) (hg : 0 ≤ gear) (hgl : 0 ≤ gearLoc) :
    wingMounted ![2] loc e ck7 gear gearLoc ≤ 2 * (e 0).onWing ck7 + gear := by
  rw [wingMounted_one_pair]
  have h1 : loc 0 / (loc 0 + 1 / 1000) ≤ 1 := (spanFactor_lt_one hl).le
  have h2 : gearLoc / (gearLoc + 1 / 1000) ≤ 1 := (spanFactor_lt_one hgl).le
  have h3 : gear * gearLoc / (gearLoc + 1 / 1000) = gear * (gearLoc / (gearLoc + 1 / 1000)) := by
    ring
  rw [h3]
  nlinarith [mul_le_mul_of_nonneg_right h1 (by linarith : 0 ≤ 2 * (e 0).onWing ck7),
    mul_le_mul_of_nonneg_left h2 hg]

/-- … but with two pairs (four engines, two locations) it does: the four engines are counted almost
twice. -/
theorem wingMounted_le_violated :
    ¬ ∀ (k : ℕ) (loc : Fin (k / 2) → ℝ) (e : Fin 1 → EngIn) (ck7 gear gearLoc : ℝ),
      (∀ l, 0 ≤ loc l) → 0 ≤ (e 0).onWing ck7 → 0 ≤ gear → 0 ≤ gearLoc →
      wingMounted ![k] loc e ck7 gear gearLoc ≤ k * (e 0).onWing ck7 + gear := by
  intro h
  have := h 4 (fun _ => 1 / 2) (fun _ => ⟨1, 1, 0, 0, 0⟩) 1 0 0 (fun _ => by norm_num)
    (by norm_num [EngIn.onWing, dryMass]) le_rfl le_rfl
  rw [wingMounted_one_type 4 _ (by norm_num)] at this
  norm_num [spanFactor, EngIn.onWing, dryMass] at this

/-- A type whose slice starts beyond the locations has no influence at all. -/
theorem spanSum_beyond (num : Fin n → ℕ) (loc : Fin m → ℝ) (i : Fin n) (h : m ≤ startIdx num i) :
    spanSum num loc i = 0 := by
  unfold spanSum
  refine Finset.sum_eq_zero fun l _ => ?_
  have hl := l.2
  rw [if_neg]
  intro hs
  have := hs.1
  omega

/-- Two types of two engines each have two locations, and both go to the first type: the engines of
the second type are not counted. -/
theorem wingMounted_second_type_violated :
    ¬ ∀ (loc : Fin 2 → ℝ) (e e' : Fin 2 → EngIn), (∀ l, 0 < loc l) → e 0 = e' 0 →
      (e 1).onWing 1 < (e' 1).onWing 1 →
      wingMounted ![2, 2] loc e 1 0 0 < wingMounted ![2, 2] loc e' 1 0 0 := by
  intro h
  have hz : ∀ loc : Fin 2 → ℝ, spanSum ![2, 2] loc 1 = 0 := by
    intro loc
    apply spanSum_beyond
    have : startIdx ![2, 2] (1 : Fin 2) = 2 := by decide
    rw [this]
  have := h (fun _ => 1 / 2) (fun _ => ⟨1, 1, 0, 0, 0⟩) ![⟨1, 1, 0, 0, 0⟩, ⟨2, 1, 0, 0, 0⟩]
    (fun _ => by norm_num) (by simp) (by norm_num [EngIn.onWing, dryMass])
  simp [wingMounted, Fin.sum_univ_two, hz] at this

/-- The slices of two types never overlap. -/
theorem inSlice_unique {num : Fin n → ℕ} {i j : Fin n} {l : Fin m} (hi : inSlice num i l)
    (hj : inSlice num j l) : i = j := by
  have key : ∀ {a b : Fin n}, a < b → startIdx num a + num a ≤ startIdx num b := by
    intro a b hab
    unfold startIdx
    have hsub : insert a (Finset.univ.filter (· < a)) ⊆ Finset.univ.filter (· < b) := by
      intro x hx
      simp only [Finset.mem_insert, Finset.mem_filter, Finset.mem_univ, true_and] at hx ⊢
      rcases hx with rfl | hx
      · exact hab
      · exact lt_trans hx hab
    have := Finset.sum_le_sum_of_subset (f := num) hsub
    rw [Finset.sum_insert (by simp)] at this
    omega
  by_contra hne
  have hi1 := hi.1; have hi2 := hi.2; have hj1 := hj.1; have hj2 := hj.2
  rcases lt_or_gt_of_ne hne with h | h
  · have := key h; omega
  · have := key h; omega

/-- Each location is used at most once: the sums of all types add up to at most all factors. -/
theorem spanSum_total_le (num : Fin n → ℕ) (loc : Fin m → ℝ) (h : ∀ l, 0 ≤ loc l) :
    ∑ i, spanSum num loc i ≤ ∑ l, spanFactor (loc l) := by
  unfold spanSum
  rw [Finset.sum_comm]
  refine Finset.sum_le_sum fun l _ => ?_
  have hf : 0 ≤ spanFactor (loc l) := div_nonneg (h l) (by have := h l; linarith)
  by_cases hx : ∃ i, inSlice num i l
  · obtain ⟨i, hi⟩ := hx
    rw [Finset.sum_eq_single i]
    · rw [if_pos hi]
    · intro j _ hj
      rw [if_neg fun hjl => hj (inSlice_unique hjl hi)]
    · simp
  · rw [Finset.sum_eq_zero]
    · exact hf
    · intro i _
      rw [if_neg fun hi => hx ⟨i, hi⟩]

/-- The partials of the mass on the wing by everything but the locations. -/
theorem wingMounted_partials (num : Fin n → ℕ) (loc : Fin m → ℝ) (e : Fin n → EngIn)
    (ck7 gear gearLoc : ℝ) (h7 : ck7 ≠ 0) (hg : gearLoc + 1 / 1000 ≠ 0) (i : Fin n) :
    HasDerivAt (fun t => wingMounted num loc (Function.update e i { e i with spec := t }) ck7 gear
      gearLoc) (dWingSpec num loc e i) (e i).spec
    ∧ HasDerivAt (fun t => wingMounted num loc (Function.update e i { e i with thrust := t }) ck7
      gear gearLoc) (dWingThrust num loc e i) (e i).thrust
    ∧ HasDerivAt (fun t => wingMounted num loc (Function.update e i { e i with pod := t }) ck7 gear
      gearLoc) (dWingPod num loc i) (e i).pod
    ∧ HasDerivAt (fun t => wingMounted num loc (Function.update e i { e i with prop := t }) ck7 gear
      gearLoc) (dWingPod num loc i) (e i).prop
    ∧ HasDerivAt (fun t => wingMounted num loc (Function.update e i { e i with addtl := t }) ck7 gear
      gearLoc) (dWingAddtl num loc ck7 i) (e i).addtl
    ∧ HasDerivAt (fun t => wingMounted num loc e t gear gearLoc) (dWingCk7 num loc e ck7) ck7
    ∧ HasDerivAt (fun t => wingMounted num loc e ck7 t gearLoc) (dWingGear gearLoc) gear
    ∧ HasDerivAt (fun t => wingMounted num loc e ck7 gear t) (dWingGearLoc gear gearLoc) gearLoc := by
  have step : ∀ (ei : ℝ → EngIn) (d x : ℝ),
      HasDerivAt (fun t => (ei t).onWing ck7) d x →
      HasDerivAt (fun t => wingMounted num loc (Function.update e i (ei t)) ck7 gear gearLoc)
        (spanSum num loc i * (d * num i)) x := by
    intro ei d x hd
    unfold wingMounted
    refine HasDerivAt.add_const _ ?_
    have hs := HasDerivAt.fun_sum (u := Finset.univ)
      (A := fun j t => spanSum num loc j * ((Function.update e i (ei t) j).onWing ck7 * num j))
      (A' := fun j => if j = i then spanSum num loc i * (d * num i) else 0) (x := x) (by
        intro j _
        by_cases hj : j = i
        · subst hj
          simpa using (hd.mul_const (num j : ℝ)).const_mul (spanSum num loc j)
        · simp only [Function.update_of_ne hj, if_neg hj]
          exact hasDerivAt_const _ _)
    simpa using hs
  refine ⟨?_, ?_, ?_, ?_, ?_, ?_, ?_, ?_⟩
  · refine hd_congr (step (fun t => { e i with spec := t }) (e i).thrust _
      (affine_deriv fun t => by simp [EngIn.onWing, dryMass]; ring)) (fun t => rfl) ?_
    unfold dWingSpec; ring
  · refine hd_congr (step (fun t => { e i with thrust := t }) (e i).spec _
      (affine_deriv fun t => by simp [EngIn.onWing, dryMass]; ring)) (fun t => rfl) ?_
    unfold dWingThrust; ring
  · refine hd_congr (step (fun t => { e i with pod := t }) 1 _
      (affine_deriv fun t => by simp [EngIn.onWing, dryMass]; ring)) (fun t => rfl) ?_
    unfold dWingPod; ring
  · refine hd_congr (step (fun t => { e i with prop := t }) 1 _
      (affine_deriv fun t => by simp [EngIn.onWing, dryMass]; ring)) (fun t => rfl) ?_
    unfold dWingPod; ring
  · refine hd_congr (step (fun t => { e i with addtl := t }) (1 / ck7) _
      (affine_deriv fun t => by simp [EngIn.onWing, dryMass]; ring)) (fun t => rfl) ?_
    unfold dWingAddtl; ring
  · have hs := HasDerivAt.fun_sum (u := Finset.univ)
      (A := fun j t => spanSum num loc j * ((e j).onWing t * num j))
      (A' := fun j => -spanSum num loc j * (e j).addtl / ck7 ^ 2 * num j) (x := ck7) (by
        intro j _
        have h1 : HasDerivAt (fun t => (e j).addtl / t) (-(e j).addtl / ck7 ^ 2) ck7 := by
          simpa using (hasDerivAt_const ck7 (e j).addtl).fun_div (hasDerivAt_id ck7) h7
        have h2 := (((((h1.const_add (dryMass (e j).spec (e j).thrust)).add_const
          (e j).pod).add_const (e j).prop).mul_const (num j : ℝ))).const_mul (spanSum num loc j)
        refine hd_congr h2 (fun t => rfl) ?_
        ring)
    exact hs.add_const _
  · exact affine_deriv fun t => by simp [wingMounted, dWingGear]; ring
  · have h1 : HasDerivAt (fun t => gear * t) gear gearLoc := affine_deriv fun t => by ring
    have h2 : HasDerivAt (fun t : ℝ => t + 1 / 1000) 1 gearLoc := affine_deriv fun t => by ring
    have h3 := (h1.fun_div h2 hg).const_add
      (∑ i, spanSum num loc i * ((e i).onWing ck7 * num i))
    refine hd_congr h3 (fun t => rfl) ?_
    unfold dWingGearLoc; ring

/-- The true partial by location `l`: that of its factor times the mass of the type it belongs to. -/
theorem wingMounted_location (num : Fin n → ℕ) (loc : Fin m → ℝ) (e : Fin n → EngIn)
    (ck7 gear gearLoc : ℝ) (l : Fin m) (hl : loc l + 1 / 1000 ≠ 0) :
    PartialAt (fun y => wingMounted num y e ck7 gear gearLoc) loc l
      (1 / 1000 / (loc l + 1 / 1000) ^ 2
        * ∑ i, if inSlice num i l then (e i).onWing ck7 * num i else 0) := by
  have hf : HasDerivAt spanFactor (1 / 1000 / (loc l + 1 / 1000) ^ 2) (loc l) := by
    have h2 : HasDerivAt (fun t : ℝ => t + 1 / 1000) 1 (loc l) := affine_deriv fun t => by ring
    refine hd_congr ((hasDerivAt_id (loc l)).fun_div h2 hl) (fun t => rfl) ?_
    simp only [id]; ring
  unfold PartialAt wingMounted
  refine HasDerivAt.add_const _ ?_
  rw [Finset.mul_sum]
  refine HasDerivAt.fun_sum fun i _ => ?_
  have h := partialAt_sum (fun j t => if inSlice num i j then spanFactor t else 0) loc l
    (d := if inSlice num i l then 1 / 1000 / (loc l + 1 / 1000) ^ 2 else 0) (by
      by_cases hs : inSlice num i l
      · simp only [if_pos hs]; exact hf
      · simp only [if_neg hs]; exact hasDerivAt_const _ _)
  have h' := HasDerivAt.mul_const h ((e i).onWing ck7 * num i)
  refine hd_congr h' (fun t => rfl) ?_
  by_cases hs : inSlice num i l <;> simp [hs]

/-- The coded partial by a location is right when the additional mass is that of
`AdditionalEngineMass`. -/
theorem wingMounted_location_partial (num : Fin n → ℕ) (loc : Fin m → ℝ) (e : Fin n → EngIn)
    (c : Fin n → ℝ) (ck7 gear gearLoc : ℝ) (l : Fin m) (hl : loc l + 1 / 1000 ≠ 0) (h7 : ck7 ≠ 0)
    (hadd : ∀ i, (e i).addtl = additionalMass ck7 (c i) (e i).spec (e i).thrust) :
    PartialAt (fun y => wingMounted num y e ck7 gear gearLoc) loc l
      (dWingLocation num c e loc l) := by
  have h := wingMounted_location num loc e ck7 gear gearLoc l hl
  unfold PartialAt at h ⊢
  refine hd_congr h (fun t => rfl) ?_
  unfold dWingLocation wingMassDeriv
  congr 1
  refine Finset.sum_congr rfl fun i _ => ?_
  congr 1
  unfold wingMassVec EngIn.onWing
  rw [hadd i]
  unfold additionalMass
  rw [mul_div_cancel_left₀ _ h7]

example : ∀ i : Fin 1, ((fun _ => ⟨1 / 5, 28690, 1004, 1500, 0⟩ : Fin 1 → EngIn) i).addtl
    = additionalMass 1 (502 / 2869) (1 / 5) 28690 := by
  intro i; norm_num [additionalMass, dryMass]

/-- If the additional mass is set otherwise, the partial by the location ignores it. -/
theorem wingMounted_location_violated :
    ¬ ∀ (num : Fin 1 → ℕ) (loc : Fin 1 → ℝ) (e : Fin 1 → EngIn) (c : Fin 1 → ℝ)
      (ck7 gear gearLoc : ℝ) (l : Fin 1), loc l + 1 / 1000 ≠ 0 → ck7 ≠ 0 →
      PartialAt (fun y => wingMounted num y e ck7 gear gearLoc) loc l
        (dWingLocation num c e loc l) := by
  intro h
  have h1 := h (fun _ => 2) (fun _ => 0) (fun _ => ⟨0, 0, 1, 0, 0⟩) (fun _ => 0) 1 0 0 0
    (by norm_num) one_ne_zero
  have h2 := wingMounted_location (fun _ : Fin 1 => 2) (fun _ : Fin 1 => 0)
    (fun _ => ⟨0, 0, 1, 0, 0⟩) 1 0 0 0 (by norm_num)
  have := h1.unique h2
  have hs : inSlice (fun _ : Fin 1 => 2) 0 (0 : Fin 1) := by decide
  simp [dWingLocation, wingMassDeriv, wingMassVec, EngIn.onWing, dryMass, hs] at this

/-! ### Engine oil -/

theorem oilMass_partial (num : Fin n → ℕ) (ty : Fin n → EngType) (T : Fin n → ℝ) (i : Fin n) :
    PartialAt (oilMass num ty) T i (dOilPerEngine (ty i) * num i) :=
  partialAt_sum (fun j t => oilPerEngine (ty j) t * num j) T i (by
    cases h : ty i <;> exact affine_deriv fun t => by simp [oilPerEngine, dOilPerEngine]; try ring)

/-- Every engine of a known kind has at least twelve pounds of oil; engines of other kinds have
none. -/
theorem oilMass_ge (num : Fin n → ℕ) (ty : Fin n → EngType) (T : Fin n → ℝ) (hT : ∀ i, 0 ≤ T i)
    (hk : ∀ i, ty i ≠ .other) : 12 * ∑ i, (num i : ℝ) ≤ oilMass num ty T := by
  unfold oilMass
  rw [Finset.mul_sum]
  refine Finset.sum_le_sum fun i _ => ?_
  refine mul_le_mul_of_nonneg_right ?_ (Nat.cast_nonneg _)
  have := hT i
  cases h : ty i
  · simp only [oilPerEngine]; linarith
  · simp only [oilPerEngine]; linarith
  · simp only [oilPerEngine]; linarith
  · exact absurd h (hk i)

theorem oilMass_other (num : Fin n → ℕ) (T : Fin n → ℝ) : oilMass num (fun _ => .other) T = 0 := by
  simp [oilMass, oilPerEngine]

end Verif.GaspEngines
