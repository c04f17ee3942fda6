import Verif.Model.Propulsion
import Verif.Lemmas.Deriv
import Mathlib.Tactic.IntervalCases
import Mathlib.Algebra.Order.BigOperators.Group.Finset
import Mathlib.Analysis.Calculus.Deriv.Add

/-! # C25 (throttle allocation), C26 (engine scaling), C27 (fuel accounting) -/

namespace Verif
noncomputable section
open Classical Finset

/-! ## C25 -/

theorem node_div (m i j : ℕ) (hj : j < m + 1) : (i * (m + 1) + j) / (m + 1) = i := by
  rw [Nat.mul_comm, Nat.mul_add_div (Nat.succ_pos m), Nat.div_eq_of_lt hj, Nat.add_zero]

theorem node_mod (m i j : ℕ) (hj : j < m + 1) : (i * (m + 1) + j) % (m + 1) = j := by
  rw [Nat.mul_comm, Nat.mul_add_mod, Nat.mod_eq_of_lt hj]

/-- Dynamic mode: the engine throttles of every node sum to the aggregate throttle. -/
theorem throttleDyn_sum (m : ℕ) (agg alloc : ℕ → ℝ) (i : ℕ) :
    ∑ j ∈ range (m + 1), throttleDyn m agg alloc (i * (m + 1) + j) = agg i := by
  rw [sum_range_succ]
  have h1 : ∀ j ∈ range m, throttleDyn m agg alloc (i * (m + 1) + j) = agg i * alloc (i * m + j) := by
    intro j hj
    rw [mem_range] at hj
    unfold throttleDyn
    rw [node_div m i j (by omega), node_mod m i j (by omega), if_pos hj]
  rw [sum_congr rfl h1, ← mul_sum]
  unfold throttleDyn
  rw [node_div m i m (by omega), node_mod m i m (by omega), if_neg (by omega)]
  unfold sumAllocDyn
  ring

/-- Fixed and static mode: likewise. -/
theorem throttleStat_sum (m : ℕ) (agg alloc : ℕ → ℝ) (i : ℕ) :
    ∑ j ∈ range (m + 1), throttleStat m agg alloc (i * (m + 1) + j) = agg i := by
  rw [sum_range_succ]
  have h1 : ∀ j ∈ range m, throttleStat m agg alloc (i * (m + 1) + j) = agg i * alloc j := by
    intro j hj
    rw [mem_range] at hj
    unfold throttleStat
    rw [node_div m i j (by omega), node_mod m i j (by omega), if_pos hj]
  rw [sum_congr rfl h1, ← mul_sum]
  unfold throttleStat
  rw [node_div m i m (by omega), node_mod m i m (by omega), if_neg (by omega)]
  unfold sumAllocStat
  ring

/-- Dynamic mode: every engine throttle lies between 0 and the aggregate. -/
theorem throttleDyn_bounds (m : ℕ) (agg alloc : ℕ → ℝ) (r : ℕ) (ha : 0 ≤ agg (r / (m + 1)))
    (h0 : ∀ j < m, 0 ≤ alloc (r / (m + 1) * m + j))
    (h1 : sumAllocDyn m alloc (r / (m + 1)) ≤ 1) :
    0 ≤ throttleDyn m agg alloc r ∧ throttleDyn m agg alloc r ≤ agg (r / (m + 1)) := by
  have hs : 0 ≤ sumAllocDyn m alloc (r / (m + 1)) :=
    sum_nonneg fun j hj => h0 j (mem_range.1 hj)
  unfold throttleDyn
  by_cases h : r % (m + 1) < m
  · have hle : alloc (r / (m + 1) * m + r % (m + 1)) ≤ sumAllocDyn m alloc (r / (m + 1)) :=
      single_le_sum (f := fun j => alloc (r / (m + 1) * m + j))
        (fun j hj => h0 j (mem_range.1 hj)) (mem_range.2 h)
    have := h0 _ h
    rw [if_pos h]
    exact ⟨mul_nonneg ha this, by nlinarith⟩
  · rw [if_neg h]
    exact ⟨mul_nonneg ha (by linarith), by nlinarith⟩

theorem throttleStat_bounds (m : ℕ) (agg alloc : ℕ → ℝ) (r : ℕ) (ha : 0 ≤ agg (r / (m + 1)))
    (h0 : ∀ j < m, 0 ≤ alloc j) (h1 : sumAllocStat m alloc ≤ 1) :
    0 ≤ throttleStat m agg alloc r ∧ throttleStat m agg alloc r ≤ agg (r / (m + 1)) := by
  have hs : 0 ≤ sumAllocStat m alloc := sum_nonneg fun j hj => h0 j (mem_range.1 hj)
  unfold throttleStat
  by_cases h : r % (m + 1) < m
  · have hle : alloc (r % (m + 1)) ≤ sumAllocStat m alloc :=
      single_le_sum (f := alloc) (fun j hj => h0 j (mem_range.1 hj)) (mem_range.2 h)
    have := h0 _ h
    rw [if_pos h]
    exact ⟨mul_nonneg ha this, by nlinarith⟩
  · rw [if_neg h]
    exact ⟨mul_nonneg ha (by linarith), by nlinarith⟩

/-- `f` with entry `c` replaced by `x`: the perturbation whose derivative is a Jacobian entry. -/
def upd (f : ℕ → ℝ) (c : ℕ) (x : ℝ) : ℕ → ℝ := fun k => if k = c then x else f k

theorem hasDerivAt_upd (f : ℕ → ℝ) (c k : ℕ) :
    HasDerivAt (fun x => upd f c x k) (if k = c then 1 else 0) (f c) := by
  unfold upd
  by_cases h : k = c
  · simp only [h, if_true]; exact hasDerivAt_id' _
  · simp only [h, if_false]; exact hasDerivAt_const _ _

theorem upd_self (f : ℕ → ℝ) (c : ℕ) : upd f c (f c) = f := by
  funext k; unfold upd; split_ifs with h
  · rw [h]
  · rfl

/-- Aggregate-throttle Jacobian, dynamic mode: the declared entry `(aggRow t, aggCol t)` holds the true
derivative, and every undeclared entry is truly zero. -/
theorem aggPartialDyn_exact (m : ℕ) (agg alloc : ℕ → ℝ) (r c : ℕ) :
    HasDerivAt (fun x => throttleDyn m (upd agg c x) alloc r)
      (if c = aggCol m r then aggPartialDyn m alloc r else 0) (agg c) := by
  have h := hasDerivAt_upd agg c (r / (m + 1))
  unfold throttleDyn aggPartialDyn aggCol
  by_cases hr : r % (m + 1) < m
  · simp only [hr, if_true]
    refine hasDerivAt_of_eq (h.mul_const _) ?_
    by_cases hc : r / (m + 1) = c
    · rw [if_pos hc, if_pos hc.symm, one_mul]
    · rw [if_neg hc, if_neg (Ne.symm hc), zero_mul]
  · simp only [hr, if_false]
    refine hasDerivAt_of_eq (h.mul_const _) ?_
    by_cases hc : r / (m + 1) = c
    · rw [if_pos hc, if_pos hc.symm, one_mul]
    · rw [if_neg hc, if_neg (Ne.symm hc), zero_mul]

theorem aggPartialStat_exact (m : ℕ) (agg alloc : ℕ → ℝ) (r c : ℕ) :
    HasDerivAt (fun x => throttleStat m (upd agg c x) alloc r)
      (if c = aggCol m r then aggPartialStat m alloc r else 0) (agg c) := by
  have h := hasDerivAt_upd agg c (r / (m + 1))
  unfold throttleStat aggPartialStat aggCol
  by_cases hr : r % (m + 1) < m
  · simp only [hr, if_true]
    refine hasDerivAt_of_eq (h.mul_const _) ?_
    by_cases hc : r / (m + 1) = c
    · rw [if_pos hc, if_pos hc.symm, one_mul]
    · rw [if_neg hc, if_neg (Ne.symm hc), zero_mul]
  · simp only [hr, if_false]
    refine hasDerivAt_of_eq (h.mul_const _) ?_
    by_cases hc : r / (m + 1) = c
    · rw [if_pos hc, if_pos hc.symm, one_mul]
    · rw [if_neg hc, if_neg (Ne.symm hc), zero_mul]

theorem hasDerivAt_sumDyn (m : ℕ) (alloc : ℕ → ℝ) (i c : ℕ) :
    HasDerivAt (fun x => sumAllocDyn m (upd alloc c x) i)
      (∑ j ∈ range m, if i * m + j = c then 1 else 0) (alloc c) := by
  unfold sumAllocDyn
  exact HasDerivAt.fun_sum fun j _ => hasDerivAt_upd alloc c (i * m + j)

theorem sum_hit (m i c : ℕ) :
    (∑ j ∈ range m, if i * m + j = c then (1 : ℝ) else 0) = if c / m = i ∧ 0 < m then 1 else 0 := by
  rcases Nat.eq_zero_or_pos m with rfl | hm
  · simp
  by_cases h : c / m = i
  · rw [if_pos ⟨h, hm⟩]
    have hc : c = i * m + c % m := by rw [← h, Nat.mul_comm]; exact (Nat.div_add_mod c m).symm
    have hlt := Nat.mod_lt c hm
    rw [Finset.sum_eq_single (c % m)]
    · rw [if_pos hc.symm]
    · intro j _ hj; rw [if_neg]; omega
    · intro hn; exact absurd (mem_range.2 hlt) hn
  · rw [if_neg (fun hh => h hh.1)]
    refine Finset.sum_eq_zero fun j hj => if_neg fun hc => h ?_
    rw [← hc, Nat.mul_comm, Nat.mul_add_div hm, Nat.div_eq_of_lt (mem_range.1 hj), Nat.add_zero]

/-- True derivative of a dynamic-mode throttle with respect to any allocation entry. -/
theorem throttleDyn_deriv (m : ℕ) (agg alloc : ℕ → ℝ) (r c : ℕ) (hm : 0 < m) :
    HasDerivAt (fun x => throttleDyn m agg (upd alloc c x) r)
      (if c / m = r / (m + 1) then
        agg (r / (m + 1)) * (if r % (m + 1) < m then (if r % (m + 1) = c % m then 1 else 0) else -1)
       else 0) (alloc c) := by
  unfold throttleDyn
  have hlt := Nat.mod_lt c hm
  have hdm := Nat.div_add_mod c m
  by_cases hr : r % (m + 1) < m
  · simp only [hr, if_true]
    refine hasDerivAt_of_eq ((hasDerivAt_upd alloc c _).const_mul _) ?_
    have hiff : r / (m + 1) * m + r % (m + 1) = c ↔ c / m = r / (m + 1) ∧ r % (m + 1) = c % m := by
      constructor
      · intro h
        rw [← h, Nat.mul_comm (r / (m + 1)) m, Nat.mul_add_div hm, Nat.div_eq_of_lt hr,
          Nat.mul_add_mod, Nat.mod_eq_of_lt hr]
        exact ⟨by omega, rfl⟩
      · rintro ⟨h1, h2⟩
        rw [← h1, h2, Nat.mul_comm]; exact hdm
    by_cases h1 : c / m = r / (m + 1)
    · by_cases h2 : r % (m + 1) = c % m
      · rw [if_pos (hiff.2 ⟨h1, h2⟩), if_pos h1, if_pos h2]
      · rw [if_neg (fun h => h2 (hiff.1 h).2), if_pos h1, if_neg h2]
    · rw [if_neg (fun h => h1 (hiff.1 h).1), if_neg h1, mul_zero]
  · simp only [hr, if_false]
    have hs := hasDerivAt_sumDyn m alloc (r / (m + 1)) c
    rw [sum_hit] at hs
    refine hasDerivAt_of_eq ((hs.const_sub 1).const_mul _) ?_
    by_cases h1 : c / m = r / (m + 1)
    · rw [if_pos ⟨h1, hm⟩, if_pos h1]
    · rw [if_neg (fun h => h1 h.1), if_neg h1]; ring

/-- Flat entry `t` of `allocPartial` stands at row `allocRowDyn m t`, column `allocColDyn m t`. -/
theorem allocPartialDyn_exact (m : ℕ) (agg alloc : ℕ → ℝ) (hm : 0 < m) (t : ℕ) :
    HasDerivAt (fun x => throttleDyn m agg (upd alloc (allocColDyn m t) x) (allocRowDyn m t))
      (allocPartial m agg t) (alloc (allocColDyn m t)) := by
  have hmm : 0 < (m + 1) * m := Nat.mul_pos (Nat.succ_pos m) hm
  set i := t / ((m + 1) * m) with hi
  set s := t % ((m + 1) * m) with hs
  have hslt : s < (m + 1) * m := Nat.mod_lt _ hmm
  have hrow : s / m < m + 1 := Nat.div_lt_of_lt_mul (by rw [Nat.mul_comm]; exact hslt)
  have hcol : s % m < m := Nat.mod_lt _ hm
  have er : allocRowDyn m t = i * (m + 1) + s / m := by unfold allocRowDyn; rw [← hi, ← hs]; ring
  have ec : allocColDyn m t = i * m + s % m := by unfold allocColDyn; rw [← hi, ← hs]; ring
  have e1 : (i * m + s % m) / m = i := by
    rw [Nat.mul_comm, Nat.mul_add_div hm, Nat.div_eq_of_lt hcol, Nat.add_zero]
  have e2 : (i * m + s % m) % m = s % m := by rw [Nat.mul_comm, Nat.mul_add_mod, Nat.mod_mod]
  have := throttleDyn_deriv m agg alloc (i * (m + 1) + s / m) (i * m + s % m) hm
  rw [node_div m i _ hrow, node_mod m i _ hrow, e1, e2, if_pos rfl] at this
  rw [er, ec]
  exact this

/-- Entries outside the declared dynamic pattern (allocation of another node) are truly zero. -/
theorem allocDyn_offpattern (m : ℕ) (agg alloc : ℕ → ℝ) (r c : ℕ) (hm : 0 < m)
    (h : ∀ t, ¬ (allocRowDyn m t = r ∧ allocColDyn m t = c)) :
    HasDerivAt (fun x => throttleDyn m agg (upd alloc c x) r) 0 (alloc c) := by
  refine hasDerivAt_of_eq (throttleDyn_deriv m agg alloc r c hm) (if_neg fun he => ?_)
  have hmm : 0 < (m + 1) * m := Nat.mul_pos (Nat.succ_pos m) hm
  have hr : r % (m + 1) < m + 1 := Nat.mod_lt _ (Nat.succ_pos m)
  have hc : c % m < m := Nat.mod_lt _ hm
  have hs : r % (m + 1) * m + c % m < (m + 1) * m := by
    have : (r % (m + 1) + 1) * m ≤ (m + 1) * m := Nat.mul_le_mul_right m hr
    have h2 : (r % (m + 1) + 1) * m = r % (m + 1) * m + m := by ring
    omega
  have key : ((m + 1) * m * (r / (m + 1)) + (r % (m + 1) * m + c % m)) / ((m + 1) * m) = r / (m + 1) := by
    rw [Nat.mul_add_div hmm, Nat.div_eq_of_lt hs, Nat.add_zero]
  have key2 : ((m + 1) * m * (r / (m + 1)) + (r % (m + 1) * m + c % m)) % ((m + 1) * m)
      = r % (m + 1) * m + c % m := by
    rw [Nat.mul_add_mod, Nat.mod_eq_of_lt hs]
  have k3 : (r % (m + 1) * m + c % m) / m = r % (m + 1) := by
    rw [Nat.mul_comm, Nat.mul_add_div hm, Nat.div_eq_of_lt hc, Nat.add_zero]
  have k4 : (r % (m + 1) * m + c % m) % m = c % m := by
    rw [Nat.mul_comm, Nat.mul_add_mod, Nat.mod_mod]
  refine h ((m + 1) * m * (r / (m + 1)) + (r % (m + 1) * m + c % m)) ⟨?_, ?_⟩
  · unfold allocRowDyn
    rw [key, key2, k3]
    have := Nat.div_add_mod r (m + 1)
    omega
  · unfold allocColDyn
    rw [key, key2, k4, ← he]
    have := Nat.div_add_mod c m
    omega

/-- Static/fixed mode: dense Jacobian entry at row `t / m`, column `t % m`. -/
theorem allocPartialStat_exact (m : ℕ) (agg alloc : ℕ → ℝ) (hm : 0 < m) (t : ℕ) :
    HasDerivAt (fun x => throttleStat m agg (upd alloc (allocColStat m t) x) (allocRowStat m t))
      (allocPartial m agg t) (alloc (allocColStat m t)) := by
  have hcol : t % m < m := Nat.mod_lt _ hm
  have e1 : t / ((m + 1) * m) = t / m / (m + 1) := by rw [Nat.mul_comm, Nat.div_div_eq_div_mul]
  have e2 : t % ((m + 1) * m) / m = t / m % (m + 1) := by
    rw [Nat.mul_comm, Nat.mod_mul_right_div_self]
  have e3 : t % ((m + 1) * m) % m = t % m := Nat.mod_mul_left_mod t (m + 1) m
  unfold throttleStat allocPartial allocMask allocColStat allocRowStat
  rw [e1, e2, e3]
  by_cases hr : t / m % (m + 1) < m
  · simp only [hr, if_true]
    exact (hasDerivAt_upd alloc (t % m) _).const_mul _
  · simp only [hr, if_false]
    have hs : HasDerivAt (fun x => sumAllocStat m (upd alloc (t % m) x)) 1 (alloc (t % m)) := by
      have h1 : HasDerivAt (fun x => sumAllocStat m (upd alloc (t % m) x))
          (∑ j ∈ range m, if j = t % m then 1 else 0) (alloc (t % m)) := by
        unfold sumAllocStat
        exact HasDerivAt.fun_sum fun j _ => hasDerivAt_upd alloc (t % m) j
      refine hasDerivAt_of_eq h1 ?_
      rw [Finset.sum_ite_eq' (range m) (t % m), if_pos (mem_range.2 hcol)]
    exact (hs.const_sub 1).const_mul _

/-- three engines, two nodes: the hypotheses are met and the values are not trivial. -/
example : throttleDyn 2 (fun _ => 6) (fun _ => 1 / 3) 5 = 2 ∧
    sumAllocDyn 2 (fun _ => (1 : ℝ) / 3) 1 ≤ 1 := by
  constructor
  · simp [throttleDyn, sumAllocDyn]; norm_num
  · simp [sumAllocDyn]; norm_num

/-! ## C26 -/

theorem fuelNeg_ff (o : ScaleOpts) (mach esf ff : ℝ) :
    HasDerivAt (fun x => fuelNeg o mach esf x) (jFuelFf o mach esf) ff := by
  unfold fuelNeg jFuelFf
  deriv_build
  ring

theorem fuelNeg_esf (o : ScaleOpts) (mach esf ff : ℝ) :
    HasDerivAt (fun x => fuelNeg o mach x ff) (jFuelEsf o mach esf ff) esf := by
  unfold fuelNeg jFuelEsf eqnScaling
  deriv_build
  ring

/-- No partial with respect to Mach is declared; the true derivative is 0 except at Mach 1. -/
theorem fuelNeg_mach (o : ScaleOpts) (mach esf ff : ℝ) (h : mach ≠ 1) :
    HasDerivAt (fun x => fuelNeg o x esf ff) 0 mach := by
  have : ∀ᶠ x in nhds mach, fuelNeg o x esf ff = fuelNeg o mach esf ff := by
    rcases lt_or_gt_of_ne h with h | h
    · filter_upwards [eventually_lt_nhds h] with x hx
      unfold fuelNeg machScaling
      rw [if_neg (not_le.2 hx), if_neg (not_le.2 h)]
    · filter_upwards [eventually_gt_nhds h] with x hx
      unfold fuelNeg machScaling
      rw [if_pos hx.le, if_pos h.le]
  exact (hasDerivAt_const mach (fuelNeg o mach esf ff)).congr_of_eventuallyEq this

/-- At Mach 1 the output jumps whenever the two factors differ and fuel flows. -/
theorem fuelNeg_mach_one_discontinuous (o : ScaleOpts) (esf ff : ℝ) (hne : o.sub ≠ o.sup)
    (hff : ff * esf * eqnScaling o esf ≠ 0) : ¬ ContinuousAt (fun x => fuelNeg o x esf ff) 1 := by
  intro hc
  have hl : Filter.Tendsto (fun x => fuelNeg o x esf ff) (nhdsWithin 1 (Set.Iio 1))
      (nhds (fuelNeg o 1 esf ff)) := hc.tendsto.mono_left nhdsWithin_le_nhds
  have hconst : ∀ᶠ x in nhdsWithin (1 : ℝ) (Set.Iio 1),
      fuelNeg o x esf ff = -(ff * (esf * o.sub * eqnScaling o esf) + o.constFlow) := by
    filter_upwards [self_mem_nhdsWithin] with x hx
    unfold fuelNeg machScaling
    rw [if_neg (not_le.2 hx)]
  have h2 := (tendsto_const_nhds.congr' (hconst.mono fun _ h => h.symm)
    : Filter.Tendsto (fun x => fuelNeg o x esf ff) (nhdsWithin 1 (Set.Iio 1)) _)
  have h3 := tendsto_nhds_unique hl h2
  unfold fuelNeg machScaling at h3
  rw [if_pos le_rfl] at h3
  have h4 : (ff * esf * eqnScaling o esf) * (o.sup - o.sub) = 0 := by linarith
  rcases mul_eq_zero.1 h4 with h | h
  · exact hff h
  · exact hne (by linarith)

theorem scaledVar_partials (esf v : ℝ) :
    HasDerivAt (fun x => scaledVar esf x) esf v ∧ HasDerivAt (fun x => scaledVar x v) v esf := by
  unfold scaledVar
  constructor
  · deriv_build; ring
  · deriv_build; ring

theorem scaledThrust_partials (esf ref : ℝ) :
    HasDerivAt (fun x => scaledThrust x ref) ref esf ∧ HasDerivAt (fun x => scaledThrust esf x) esf ref := by
  unfold scaledThrust
  constructor
  · deriv_build; ring
  · deriv_build; ring

/-- Scale factor 1 with default terms only flips the sign of the fuel flow and keeps everything else. -/
theorem scaling_identity (o : ScaleOpts) (hs : o.sub = 1) (hp : o.sup = 1) (hc : o.constTerm = 0)
    (hf : o.constFlow = 0) (mach ff v : ℝ) : fuelNeg o mach 1 ff = -ff ∧ scaledVar 1 v = v := by
  constructor
  · unfold fuelNeg machScaling eqnScaling
    rw [hs, hp, hc, hf, ite_self]; ring
  · unfold scaledVar; ring

/-- Scaled thrust is the same multiple of the reference as every scaled performance variable. -/
theorem scaling_consistent (esf ref v : ℝ) (hr : ref ≠ 0) :
    scaledVar esf v / v = scaledThrust esf ref / ref ∨ v = 0 := by
  by_cases hv : v = 0
  · exact Or.inr hv
  · left; unfold scaledVar scaledThrust; field_simp

example : fuelNeg ⟨1, 2, 0, 1, 5⟩ 1 2 10 = -5 ∧ fuelNeg ⟨1, 2, 1, 1, 5⟩ 1.5 2 10 = -45 := by
  constructor <;> simp only [fuelNeg, machScaling, eqnScaling] <;> norm_num

/-! ## C27 -/

/-- When the mass residual constraint is met, the loaded fuel is exactly the mission burn plus the
margin on it, the additional reserve and the reserve-phase burn. -/
theorem fuel_closes (f : FuelIn) (hsame : f.finalMass = f.massFinal) (hres : f.massResidual = 0) :
    f.totalFuel = (f.gross - f.massFinal) + (f.margin / 100 * (f.gross - f.massFinal) + f.additional +
      (if f.hasReserve then f.reserveInitial - f.reserveFinal else 0)) := by
  unfold FuelIn.massResidual FuelIn.totalReserve FuelIn.burned FuelIn.reserveBurned FuelIn.marginMass at hres
  rw [hsame] at hres
  by_cases hm : f.margin = 0
  · rw [if_neg (not_not.2 hm)] at hres
    rw [hm]; linarith
  · rw [if_pos hm] at hres
    linarith

/-- The capacity constraint is exactly "fuel plus unusable fuel fits the tanks". -/
theorem fuel_capacity_iff (f : FuelIn) : 0 ≤ f.excess ↔ f.totalFuel + f.unusable ≤ f.capacity := by
  unfold FuelIn.excess
  constructor <;> intro h <;> linarith

theorem fuel_block (f : FuelIn) : f.block = f.gross - f.massFinal + f.taxiIn := rfl

/-- Skipping the margin component when the margin option is 0 does not change the result. -/
theorem fuel_margin_skip (f : FuelIn) : f.marginMass = f.margin / 100 * (f.gross - f.finalMass) := by
  unfold FuelIn.marginMass
  by_cases hm : f.margin = 0
  · rw [if_neg (not_not.2 hm), hm]; ring
  · rw [if_pos hm]

/-- Non-negative burns and margins never make the aircraft land with negative usable fuel. -/
theorem fuel_sufficient (f : FuelIn) (hres : f.massResidual = 0) (hm : 0 ≤ f.margin)
    (ha : 0 ≤ f.additional) (hb : f.finalMass ≤ f.gross) (hr : f.reserveFinal ≤ f.reserveInitial) :
    f.gross - f.massFinal ≤ f.totalFuel := by
  have h1 := fuel_margin_skip f
  have h2 : 0 ≤ f.margin / 100 * (f.gross - f.finalMass) :=
    mul_nonneg (by positivity) (by linarith)
  have h3 : 0 ≤ f.reserveBurned := by
    unfold FuelIn.reserveBurned; split_ifs <;> linarith
  unfold FuelIn.massResidual FuelIn.totalReserve at hres
  have : f.burned = f.gross - f.massFinal := rfl
  linarith

example : (FuelIn.massResidual ⟨100, 60, true, 60, 55, 10, 60, 1, 50, 80, 2, 1⟩) = 0 := by
  simp only [FuelIn.massResidual, FuelIn.totalReserve, FuelIn.burned, FuelIn.reserveBurned, FuelIn.marginMass]
  norm_num

end
end Verif
