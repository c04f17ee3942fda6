import Verif.Model.PreHamilton
import Verif.Lemmas.VecDeriv
import Mathlib.Analysis.Real.Pi.Bounds
import Mathlib.Analysis.Calculus.Deriv.Inv
import Mathlib.Analysis.Calculus.Deriv.Pow
import Mathlib.Tactic.FieldSimp
import Mathlib.Tactic.Ring
import Mathlib.Tactic.Linarith

/-! ## C101: inputs of the propeller map -/

namespace Verif.PreHamilton
open Real Filter Topology

theorem anyNum_le (l : List ℝ) : anyNum l ≤ 0 ↔ ∀ x ∈ l, x = 0 := by
  unfold anyNum
  split
  · rename_i h
    obtain ⟨x, hx, h0⟩ := h
    exact ⟨fun h => absurd h (by norm_num), fun h => absurd (h x hx) h0⟩
  · rename_i h
    push Not at h
    exact ⟨fun _ => h, fun _ => le_rfl⟩

theorem anyNum_nonneg (l : List ℝ) : ¬ anyNum l < 0 := by
  unfold anyNum
  split <;> norm_num

/-- What the five checks really refuse: a diameter which is not positive, and tip speeds, speeds of sound or densities
which are zero at all nodes. -/
theorem compute_ok_iff {rho0 d : ℝ} (h0 : rho0 ≠ 0) (ns : List Node) :
    (∃ o, compute rho0 d ns = .ok o) ↔
      0 < d ∧ (∃ n ∈ ns, n.tip ≠ 0) ∧ (∃ n ∈ ns, n.sos ≠ 0) ∧ (∃ n ∈ ns, n.rho ≠ 0) := by
  have e : ∀ (f : Node → ℝ), anyNum (ns.map f) ≤ 0 ↔ ¬ ∃ n ∈ ns, f n ≠ 0 := by
    intro f
    rw [anyNum_le]
    simp
  have er : (∃ n ∈ ns, n.rho / rho0 ≠ 0) ↔ ∃ n ∈ ns, n.rho ≠ 0 := by simp [h0]
  have e1 := e (·.tip)
  have e2 := e (·.sos)
  have e3 := (e fun n => n.rho / rho0).trans (not_congr er)
  unfold compute
  by_cases h1 : d ≤ 0
  · simp [h1]
  rw [if_neg h1]
  have h1' : 0 < d := not_le.1 h1
  by_cases h2 : ∃ n ∈ ns, n.tip ≠ 0
  · by_cases h3 : ∃ n ∈ ns, n.sos ≠ 0
    · by_cases h4 : ∃ n ∈ ns, n.rho ≠ 0
      · rw [if_neg (fun q => e1.1 q h2), if_neg (fun q => e2.1 q h3), if_neg (fun q => e3.1 q h4), if_neg (anyNum_nonneg _)]
        exact ⟨fun _ => ⟨h1', h2, h3, h4⟩, fun _ => ⟨_, rfl⟩⟩
      · rw [if_neg (fun q => e1.1 q h2), if_neg (fun q => e2.1 q h3), if_pos (e3.2 h4)]
        exact ⟨(fun ⟨_, h⟩ => nomatch h), fun h => absurd h.2.2.2 h4⟩
    · rw [if_neg (fun q => e1.1 q h2), if_pos (e2.2 h3)]
      exact ⟨(fun ⟨_, h⟩ => nomatch h), fun h => absurd h.2.2.1 h3⟩
  · rw [if_pos (e1.2 h2)]
    exact ⟨(fun ⟨_, h⟩ => nomatch h), fun h => absurd h.2.1 h2⟩

/-- No shaft power is ever refused. -/
theorem power_violated (rho0 d : ℝ) (ns : List Node) : compute rho0 d ns ≠ .error .power := by
  unfold compute
  repeat' split
  all_goals first
    | (rename_i h; exact absurd h (anyNum_nonneg _))
    | (intro h; cases h)

/-- A node with negative tip speed, speed of sound, density and power passes, even alone. -/
theorem checks_violated {rho0 d : ℝ} (h0 : 0 < rho0) (hd : 0 < d) :
    compute rho0 d [⟨-1, -1, -1, -1, -1⟩] = .ok [node rho0 d ⟨-1, -1, -1, -1, -1⟩] := by
  obtain ⟨o, ho⟩ := (compute_ok_iff (d := d) h0.ne' [⟨-1, -1, -1, -1, -1⟩]).2
    ⟨hd, ⟨_, List.mem_singleton_self _, by norm_num⟩, ⟨_, List.mem_singleton_self _, by norm_num⟩,
      ⟨_, List.mem_singleton_self _, by norm_num⟩⟩
  rw [ho]
  unfold compute at ho
  repeat' split at ho
  all_goals first
    | (cases ho; rfl)
    | cases ho

/-- When the physical requirements hold the checks pass, and every node gets its own values. -/
theorem compute_ok {rho0 d : ℝ} {ns : List Node} (h0 : 0 < rho0) (hd : 0 < d) (hne : ns ≠ [])
    (h : ∀ n ∈ ns, 0 < n.tip ∧ 0 < n.sos ∧ 0 < n.rho ∧ 0 ≤ n.shp) :
    ∃ o, compute rho0 d ns = .ok o ∧ o.length = ns.length ∧
      ∀ k (hk : k < ns.length) (hk' : k < o.length),
        o[k].adv = π * max (ns[k].v) (1 / 10 ^ 6) / ns[k].tip ∧ o[k].tipMach = ns[k].tip / ns[k].sos ∧
        0 ≤ o[k].cp ∧ 0 < o[k].adv ∧ 0 < o[k].tipMach := by
  obtain ⟨n, hn⟩ := List.exists_mem_of_ne_nil ns hne
  obtain ⟨o, ho⟩ := (compute_ok_iff (d := d) h0.ne' ns).2 ⟨hd, ⟨n, hn, (h n hn).1.ne'⟩, ⟨n, hn, (h n hn).2.1.ne'⟩,
    ⟨n, hn, (h n hn).2.2.1.ne'⟩⟩
  have e : o = ns.map (node rho0 d) := by
    unfold compute at ho
    repeat' split at ho
    all_goals first
      | (cases ho; rfl)
      | cases ho
  refine ⟨o, ho, by rw [e, List.length_map], ?_⟩
  intro k hk hk'
  subst e
  rw [List.getElem_map]
  obtain ⟨h1, h2, h3, h4⟩ := h _ (List.getElem_mem hk)
  have c : clamp ns[k].v = max (ns[k].v) (1 / 10 ^ 6) := by
    unfold clamp
    split
    · rename_i q; exact (max_eq_right q).symm
    · rename_i q; exact (max_eq_left (le_of_lt (not_le.1 q))).symm
  have cp : 0 < clamp ns[k].v := by
    rw [c]; exact lt_max_of_lt_right (by positivity)
  refine ⟨by show π * clamp _ / _ = _; rw [c], rfl, ?_, div_pos (mul_pos pi_pos cp) h1, div_pos h1 h2⟩
  show 0 ≤ ns[k].shp * (10 * 10 ^ 10) / (2 * 6966) / (ns[k].rho / rho0) / (ns[k].tip ^ 3 * d ^ 2)
  positivity

/-- The advance ratio handed to the propeller map is never zero, so its branch for static conditions, which takes the
tip Mach number (aviary/subsystems/propulsion/propeller/hamilton_standard.py:872-881), is never taken. -/
theorem static_branch_violated {rho0 d : ℝ} {n : Node} (ht : n.tip ≠ 0) : (node rho0 d n).adv ≠ 0 := by
  have cp : 0 < clamp n.v := by
    unfold clamp
    split
    · positivity
    · rename_i q
      exact lt_trans (by positivity) (not_le.1 q)
  exact div_ne_zero (mul_pos pi_pos cp).ne' ht

/-! ### Derivatives -/

theorem cp_eq (rho0 d : ℝ) (n : Node) :
    (node rho0 d n).cp = K * n.shp / (n.rho / rho0) / (n.tip ^ 3 * d ^ 2) := by
  show n.shp * (10 * 10 ^ 10) / (2 * 6966) / (n.rho / rho0) / (n.tip ^ 3 * d ^ 2) = _
  unfold K
  congr 2
  ring

/-- All derivatives are right, except by the velocity where it is clamped. -/
theorem partials_partial {rho0 d : ℝ} {n : Node} (h0 : rho0 ≠ 0) (hd : d ≠ 0) (ht : n.tip ≠ 0) (hr : n.rho ≠ 0)
    (hs : n.sos ≠ 0) (w : Wrt) (hv : w = .v → 1 / 10 ^ 6 < n.v) :
    HasDerivAt (fun t => (node rho0 (setD d w t) (setN n w t)).cp) (part rho0 d n w).cp (get n d w) ∧
    HasDerivAt (fun t => (node rho0 (setD d w t) (setN n w t)).adv) (part rho0 d n w).adv (get n d w) ∧
    HasDerivAt (fun t => (node rho0 (setD d w t) (setN n w t)).tipMach) (part rho0 d n w).tipMach (get n d w) := by
  simp only [cp_eq]
  cases w
  case tip =>
    refine ⟨?_, ?_, ?_⟩
    · have q := (hasDerivAt_const n.tip (K * n.shp / (n.rho / rho0))).div
        (((hasDerivAt_id n.tip).pow 3).mul_const (d ^ 2)) (mul_ne_zero (pow_ne_zero 3 ht) (pow_ne_zero 2 hd))
      refine hd_congr q (fun t => rfl) ?_
      simp [part]
      field_simp
    · have q := (hasDerivAt_const n.tip (π * clamp n.v)).div (hasDerivAt_id n.tip) ht
      refine hd_congr q (fun t => rfl) ?_
      simp [part]
      field_simp
    · refine affine_deriv fun t => ?_
      show t / n.sos = 1 / n.sos * t + 0 / n.sos
      ring
  case shp =>
    refine ⟨?_, hasDerivAt_const _ ((node rho0 d n).adv), hasDerivAt_const _ ((node rho0 d n).tipMach)⟩
    refine affine_deriv fun t => ?_
    show K * t / (n.rho / rho0) / (n.tip ^ 3 * d ^ 2) = K * rho0 / (n.rho * n.tip ^ 3 * d ^ 2) * t
      + K * 0 / (n.rho / rho0) / (n.tip ^ 3 * d ^ 2)
    field_simp
    ring
  case rho =>
    refine ⟨?_, hasDerivAt_const _ ((node rho0 d n).adv), hasDerivAt_const _ ((node rho0 d n).tipMach)⟩
    have q := ((hasDerivAt_const n.rho (K * n.shp)).div ((hasDerivAt_id n.rho).div_const rho0)
      (div_ne_zero hr h0)).div_const (n.tip ^ 3 * d ^ 2)
    refine hd_congr q (fun t => rfl) ?_
    simp [part]
    field_simp
  case v =>
    refine ⟨hasDerivAt_const _ (K * n.shp / (n.rho / rho0) / (n.tip ^ 3 * d ^ 2)), ?_,
      hasDerivAt_const _ ((node rho0 d n).tipMach)⟩
    have q : HasDerivAt (fun t => π * t / n.tip) (π / n.tip) n.v :=
      affine_deriv fun t => by ring
    refine q.congr_of_eventuallyEq ?_
    filter_upwards [eventually_gt_nhds (hv rfl)] with t h
    show π * clamp t / n.tip = π * t / n.tip
    rw [clamp, if_neg (not_le.2 h)]
  case sos =>
    refine ⟨hasDerivAt_const _ (K * n.shp / (n.rho / rho0) / (n.tip ^ 3 * d ^ 2)),
      hasDerivAt_const _ ((node rho0 d n).adv), ?_⟩
    have q := (hasDerivAt_const n.sos n.tip).div (hasDerivAt_id n.sos) hs
    refine hd_congr q (fun t => rfl) ?_
    simp [part]
  case d =>
    refine ⟨?_, hasDerivAt_const _ ((node rho0 d n).adv), hasDerivAt_const _ ((node rho0 d n).tipMach)⟩
    have q := (hasDerivAt_const d (K * n.shp / (n.rho / rho0))).div
      (((hasDerivAt_id d).pow 2).const_mul (n.tip ^ 3)) (mul_ne_zero (pow_ne_zero 3 ht) (pow_ne_zero 2 hd))
    refine hd_congr q (fun t => rfl) ?_
    simp [part]
    field_simp

/-- Below the limit the advance ratio does not depend on the velocity, but its derivative is that of the other
branch. -/
theorem velocity_violated {rho0 d : ℝ} {n : Node} (hv : n.v < 1 / 10 ^ 6) (ht : 0 < n.tip) :
    HasDerivAt (fun t => (node rho0 d (setN n .v t)).adv) 0 n.v ∧ 0 < (part rho0 d n .v).adv := by
  refine ⟨?_, div_pos pi_pos ht⟩
  refine (hasDerivAt_const n.v (π * (1 / 10 ^ 6) / n.tip)).congr_of_eventuallyEq ?_
  filter_upwards [eventually_lt_nhds hv] with t h
  show π * clamp t / n.tip = _
  rw [clamp, if_pos (le_of_lt h)]

example : compute (1 / 400) 10 [⟨800, 1000, 1 / 500, 0, 1100⟩] ≠ .error .power ∧
    (0 : ℝ) < 1 / 10 ^ 6 ∧ (⟨800, 1000, 1 / 500, 0, 1100⟩ : Node).v < 1 / 10 ^ 6 :=
  ⟨power_violated _ _ _, by positivity, by norm_num⟩

example : ∃ o, compute (1 / 400) 10 [⟨800, 1000, 1 / 500, 0, 1100⟩] = .ok o :=
  (compute_ok_iff (by norm_num) _).2 ⟨by norm_num, ⟨_, List.mem_singleton_self _, by norm_num⟩,
    ⟨_, List.mem_singleton_self _, by norm_num⟩, ⟨_, List.mem_singleton_self _, by norm_num⟩⟩

end Verif.PreHamilton
