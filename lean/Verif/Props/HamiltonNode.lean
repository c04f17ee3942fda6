import Verif.Model.HamiltonNode
import Verif.Props.HamiltonStandard
import Mathlib.Data.Rat.Cast.Order
import Mathlib.Tactic.IntervalCases

/-!
# C51, C52: propeller tables and thrust coefficient
-/

namespace Verif.HS

variable {α : Type} [Field α] [LinearOrder α] [IsStrictOrderedRing α]

/-- Rows checked with rational arithmetic are increasing in every ordered field. -/
theorem incr_arr (n : ℕ) (l : List ℚ) (h : ∀ j < n, ∀ i < j, l.getD i 0 < l.getD j 0) : Incr n (arr l : ℕ → α) := by
  intro i j hij hj
  exact Rat.cast_lt.2 (h j hj i hij)

/-- A row may serve as abscissa: at least four entries, strictly increasing. -/
def Axis (n : ℕ) (l : List ℚ) : Prop := 4 ≤ n ∧ n ≤ l.length ∧ ∀ j < n, ∀ i < j, l.getD i 0 < l.getD j 0

instance (n : ℕ) (l : List ℚ) : Decidable (Axis n l) := by unfold Axis; infer_instance

theorem Axis.incr {n : ℕ} {l : List ℚ} (h : Axis n l) : Incr n (arr l : ℕ → α) := incr_arr n l h.2.2

/-- **C51 (tables).** Every row used as abscissa by the propeller code has at least four strictly increasing entries in the part that is used, and the
rows of ordinates are long enough. Hence C48 and C49 apply to each of the look-ups. -/
theorem tables_ok :
    Axis 6 Tab.actFactor ∧ (∀ k < 2, (row Tab.afcpc k).length = 6 ∧ (row Tab.afctc k).length = 6) ∧
    Axis 14 Tab.cpec ∧ Axis 14 Tab.ctec ∧ (∀ b < 4, (row Tab.blP b).length = 14 ∧ (row Tab.blT b).length = 14) ∧
    Axis 6 Tab.clArr ∧ Axis 7 Tab.advArr ∧ Axis 11 Tab.advArr2 ∧ Axis 4 Tab.bladesArr ∧
    (∀ r < 6, Axis (Tab.cliLen.getD r 0) (row Tab.cpCli r) ∧ Tab.cliLen.getD r 0 ≤ (row Tab.xpcli r).length ∧
      Axis (min (Tab.cliLen.getD r 0) 14) (row Tab.ctCli r) ∧ min (Tab.cliLen.getD r 0) 14 ≤ (row Tab.xtcli r).length ∧
      (row Tab.machCorr r).length = 11) ∧
    (∀ k < 7, Axis (Tab.angLen.getD k 0) (row Tab.bladeAngle k) ∧
      ∀ b < 4, Axis (Tab.angLen.getD k 0) (row3 Tab.cpAngle b k) ∧ Tab.angLen.getD k 0 ≤ (row3 Tab.ctAngle b k).length) ∧
    Axis 9 (Tab.compMach.drop 3) ∧ Axis 12 (Tab.compMach.drop 12) ∧ Tab.compMach.length = 3 + 9 + 12 + 9 * 12 := by
  decide +kernel

/-- **C51 (shape of the tables).** More power needs a larger blade angle, and a larger blade angle gives more thrust. -/
theorem ct_increasing : ∀ k < 7, ∀ b < 4, Axis (Tab.angLen.getD k 0) (row3 Tab.ctAngle b k) := by decide +kernel

/-- Entry of the compressibility table at Mach excess `i` and thrust coefficient `j`. -/
def comp (i j : ℕ) : ℚ := Tab.compMach.getD (24 + 12 * i + j) 0

/-- **C51 violated (shape).** The tip loss factor should not grow with Mach excess nor fall with thrust; the entries .900 of the row for excess 0.06
break both. -/
theorem comp_shape_violated : comp 3 10 < comp 4 10 ∧ comp 3 10 < comp 3 9 := by decide +kernel

/-- **C51 (shape, partial).** All other entries have that shape. -/
theorem comp_shape_partial :
    (∀ i < 8, ∀ j < 12, (i = 3 ∧ 10 ≤ j) ∨ comp (i + 1) j ≤ comp i j) ∧
    (∀ i < 9, ∀ j < 11, (i = 3 ∧ j = 9) ∨ comp i j ≤ comp i (j + 1)) ∧ ∀ i < 9, ∀ j < 12, 0 < comp i j ∧ comp i j ≤ 1 := by decide +kernel

/-- Every lookup of a constant row gives the constant. -/
theorem unint_const (n : ℕ) (xa ya : ℕ → α) (hx : Incr n xa) (hn : 4 ≤ n) (c : α) (hy : ∀ i < n, ya i = c) (x : α) :
    (unint n xa ya x).1 = c := by
  rcases lt_or_ge x (xa 0) with h | h
  · rw [(unint_outside n xa ya hx (by omega) x).1 h]; exact hy 0 (by omega)
  rcases lt_or_ge (xa (n - 1)) x with h' | h'
  · rw [(unint_outside n xa ya hx (by omega) x).2 h']; exact hy _ (by omega)
  · rw [unint_exact n xa ya hx hn c 0 0 (fun i hi => by rw [hy i hi]; ring) x h h']; simp

theorem arr_val (l : List ℚ) (i : ℕ) (q : ℚ) (h : l.getD i 0 = q) : (arr l i : α) = (q : α) := by simp only [arr, h]

/-- **C52 (advance ratio window).** For every advance ratio in the range of the tables the four rows selected enclose it. -/
theorem jWindow (adv : α) (h0 : 0 ≤ adv) (h5 : adv ≤ 5) :
    jBegin adv + 3 < 7 ∧ arr Tab.advArr (jBegin adv) ≤ adv ∧ adv ≤ arr Tab.advArr (jBegin adv + 3) := by
  have e : ∀ k q, Tab.advArr.getD k 0 = q → (arr Tab.advArr k : α) = (q : α) := fun k q h => arr_val _ _ _ h
  unfold jBegin
  split_ifs with h1 h2 h3
  · rw [e 0 0 (by decide +kernel), e 3 (3 / 2) (by decide +kernel)]
    push_cast
    exact ⟨by norm_num, h0, by linarith⟩
  · rw [e 1 (1 / 2) (by decide +kernel), e 4 2 (by decide +kernel)]
    push_cast
    exact ⟨by norm_num, by linarith, by linarith⟩
  · rw [e 2 1 (by decide +kernel), e 5 3 (by decide +kernel)]
    push_cast
    exact ⟨by norm_num, by linarith, by linarith⟩
  · rw [e 3 (3 / 2) (by decide +kernel), e 6 5 (by decide +kernel)]
    push_cast
    exact ⟨by norm_num, by linarith, by linarith⟩

/-- **C52 (lift coefficient window).** Likewise for the design lift coefficient. -/
theorem clWindow (cli : α) (h0 : 3 / 10 ≤ cli) (h1 : cli ≤ 8 / 10) :
    clBegin cli + 3 < 6 ∧ arr Tab.clArr (clBegin cli) ≤ cli ∧ cli ≤ arr Tab.clArr (clBegin cli + 3) := by
  have e : ∀ k q, Tab.clArr.getD k 0 = q → (arr Tab.clArr k : α) = (q : α) := fun k q h => arr_val _ _ _ h
  unfold clBegin
  split_ifs with h2 h3
  · rw [e 0 (3 / 10) (by decide +kernel), e 3 (6 / 10) (by decide +kernel)]
    push_cast
    exact ⟨by norm_num, h0, h2⟩
  · rw [e 1 (4 / 10) (by decide +kernel), e 4 (7 / 10) (by decide +kernel)]
    push_cast
    exact ⟨by norm_num, by linarith, h3⟩
  · rw [e 2 (5 / 10) (by decide +kernel), e 5 (8 / 10) (by decide +kernel)]
    push_cast
    exact ⟨by norm_num, by linarith, h1⟩

theorem incr_shift {n m b : ℕ} {xa : ℕ → α} (h : Incr n xa) (hb : b + m ≤ n) : Incr m (fun k => xa (b + k)) := by
  intro i j hij hj
  exact h _ _ (by omega) (by omega)

theorem clBegin_le (cli : α) : clBegin cli + 4 ≤ 6 := by unfold clBegin; split_ifs <;> norm_num

theorem jBegin_le (adv : α) : jBegin adv + 4 ≤ 7 := by unfold jBegin; split_ifs <;> norm_num

theorem clNear_lt {cli : α} {k : ℕ} (h : clNear cli = some k) : k < 6 := by
  unfold clNear at h
  exact List.mem_range.1 (List.mem_of_find?_eq_some h)

/-- A quantity that is the same for all six lift coefficients needs no interpolation. -/
theorem overCl_const (cli : α) (f : ℕ → α) (c : α) (hf : ∀ r < 6, f r = c) : overCl cli f = c := by
  unfold overCl
  cases h : clNear cli with
  | some k => exact hf k (clNear_lt h)
  | none =>
    have hb := clBegin_le cli
    exact unint_const 4 _ _ (incr_shift (tables_ok.2.2.2.2.2.1.incr) hb) le_rfl c (fun i hi => hf _ (by omega)) cli

/-- **C52 (no loss below the critical Mach number).** If no Mach excess is positive the tip loss factor is exactly 1. -/
theorem tipLoss_one (i : HSIn α) (b : ℕ) (ct : α) (h : ∀ r < 6, dmn i r ≤ 0) : tipLoss i b ct = 1 := by
  unfold tipLoss
  refine overCl_const _ _ _ fun r hr => ?_
  rw [if_neg (not_lt.2 (h r hr))]

theorem bladeRow_loss (i : HSIn α) (b : ℕ) (h : ∀ r < 6, dmn i r ≤ 0) (v : α × α) (hv : bladeRow i b = .ok v) : v.2 = 1 := by
  unfold bladeRow at hv
  split at hv
  · rw [Except.ok.injEq] at hv; rw [← hv]; exact tipLoss_one i b _ h
  · rw [Except.ok.injEq] at hv; rw [← hv]; exact tipLoss_one i b _ h
  · cases hv
  · cases hv

theorem blades_incr : Incr 4 (arr Tab.bladesArr : ℕ → α) := (show Axis 4 Tab.bladesArr by decide +kernel).incr

/-- **C52 (no loss, whole node).** -/
theorem hsNode_loss (blades : ℕ) (i : HSIn α) (h : ∀ r < 6, dmn i r ≤ 0) (v : α × α) (hv : hsNode blades i = .ok v) : v.2 = 1 := by
  unfold hsNode at hv
  split_ifs at hv
  · exact bladeRow_loss i _ h v hv
  · exact bladeRow_loss i _ h v hv
  · cases h0 : bladeRow i 0 with
    | error e => simp [h0] at hv
    | ok r0 =>
      cases h1 : bladeRow i 1 with
      | error e => simp [h0, h1] at hv
      | ok r1 =>
        cases h2 : bladeRow i 2 with
        | error e => simp [h0, h1, h2] at hv
        | ok r2 =>
          cases h3 : bladeRow i 3 with
          | error e => simp [h0, h1, h2, h3] at hv
          | ok r3 =>
            simp only [h0, h1, h2, h3, Except.ok.injEq] at hv
            rw [← hv]
            refine unint_const 4 _ _ blades_incr le_rfl 1 ?_ _
            intro k hk
            interval_cases k
            · exact bladeRow_loss i _ h r0 h0
            · exact bladeRow_loss i _ h r1 h1
            · exact bladeRow_loss i _ h r2 h2
            · exact bladeRow_loss i _ h r3 h3

/-- **C52 (accepted coefficient).** For each blade table the thrust coefficient is not negative, and unless it is zero its adjusted value is within 0.1 percent of
the interpolated baseline coefficient. -/
theorem bladeRow_spec (i : HSIn α) (b : ℕ) (v : α × α) (hv : bladeRow i b = .ok v) :
    0 ≤ v.1 ∧ (v.1 ≠ 0 → |v.1 * afcte i * overCl i.cli (tx i b v.1) - cttt i b| < 1 / 1000 * |cttt i b|) := by
  unfold bladeRow at hv
  split at hv
  · rename_i ct hct
    rw [Except.ok.injEq] at hv; rw [← hv]
    obtain ⟨h1, h2⟩ := findCt_found _ _ _ hct
    exact ⟨h1.le, fun _ => h2⟩
  · rw [Except.ok.injEq] at hv; rw [← hv]
    exact ⟨le_rfl, fun h => absurd rfl h⟩
  · cases hv
  · cases hv

/-- **C52 (number of blades).** Two, four, six and eight blades use their table; larger even numbers raise `IndexError`. -/
theorem hsNode_even (i : HSIn α) : hsNode 2 i = bladeRow i 0 ∧ hsNode 4 i = bladeRow i 1 ∧ hsNode 6 i = bladeRow i 2 ∧
    hsNode 8 i = bladeRow i 3 ∧ ∀ n, 5 ≤ n → hsNode (2 * n) i = .error .index := by
  refine ⟨rfl, rfl, rfl, rfl, fun n hn => ?_⟩
  unfold hsNode
  rw [if_pos (by omega), if_neg (by omega), if_neg (by omega)]

/-- **C52 (odd numbers).** If the four tables give results, one blade gets the result of two and odd numbers above eight that of eight; three, five and seven
blades get the mean of parabolas through the four results. -/
theorem hsNode_odd (i : HSIn α) (r0 r1 r2 r3 : α × α) (h0 : bladeRow i 0 = .ok r0) (h1 : bladeRow i 1 = .ok r1)
    (h2 : bladeRow i 2 = .ok r2) (h3 : bladeRow i 3 = .ok r3) :
    hsNode 1 i = .ok r0 ∧ (∀ n, 4 ≤ n → hsNode (2 * n + 1) i = .ok r3) ∧
    ∀ v, hsNode 5 i = .ok v → v.1 = (-r0.1 + 9 * r1.1 + 9 * r2.1 - r3.1) / 16 ∧ v.2 = (-r0.2 + 9 * r1.2 + 9 * r2.2 - r3.2) / 16 := by
  have e : ∀ k q, Tab.bladesArr.getD k 0 = q → (arr Tab.bladesArr k : α) = (q : α) := fun k q h => arr_val _ _ _ h
  have hnode : ∀ blades, blades % 2 = 1 → hsNode blades i =
      .ok ((unint 4 (arr Tab.bladesArr) (fun m => ([r0.1, r1.1, r2.1, r3.1] : List α).getD m 0) (blades : α)).1,
           (unint 4 (arr Tab.bladesArr) (fun m => ([r0.2, r1.2, r2.2, r3.2] : List α).getD m 0) (blades : α)).1) := by
    intro n hn; unfold hsNode; rw [if_neg (by omega)]; simp only [h0, h1, h2, h3]
  refine ⟨?_, ?_, ?_⟩
  · have hlt : ((1 : ℕ) : α) < arr Tab.bladesArr 0 := by rw [e 0 2 (by decide +kernel)]; norm_num
    rw [hnode 1 rfl, (unint_outside 4 _ _ blades_incr (by norm_num) _).1 hlt, (unint_outside 4 _ _ blades_incr (by norm_num) _).1 hlt]
    rfl
  · intro n hn
    have hlt : (arr Tab.bladesArr (4 - 1) : α) < ((2 * n + 1 : ℕ) : α) := by
      rw [e 3 8 (by decide +kernel)]
      have : (8 : α) < ((2 * n + 1 : ℕ) : α) := by exact_mod_cast (by omega : 8 < 2 * n + 1)
      simpa using this
    rw [hnode _ (by omega), (unint_outside 4 _ _ blades_incr (by norm_num) _).2 hlt, (unint_outside 4 _ _ blades_incr (by norm_num) _).2 hlt]
    rfl
  · intro v hv
    rw [hnode 5 rfl, Except.ok.injEq] at hv
    have a0 : (arr Tab.bladesArr 0 : α) = 2 := by rw [e 0 2 (by decide +kernel)]; norm_num
    have a1 : (arr Tab.bladesArr 1 : α) = 4 := by rw [e 1 4 (by decide +kernel)]; norm_num
    have a2 : (arr Tab.bladesArr 2 : α) = 6 := by rw [e 2 6 (by decide +kernel)]; norm_num
    have a3 : (arr Tab.bladesArr 3 : α) = 8 := by rw [e 3 8 (by decide +kernel)]; norm_num
    have key : ∀ y : ℕ → α, (unint 4 (arr Tab.bladesArr) y ((5 : ℕ) : α)).1 = (-y 0 + 9 * y 1 + 9 * y 2 - y 3) / 16 := by
      intro y
      have hin := unint_inside 4 (arr Tab.bladesArr) y blades_incr le_rfl 2 (by norm_num) (by norm_num) ((5 : ℕ) : α)
        (by show arr Tab.bladesArr 1 < _; rw [a1]; norm_num) (by rw [a2]; norm_num)
      rw [hin]
      simp only [S, P, parab, Nat.reduceSub, Nat.reduceAdd, Nat.reduceEqDiff, if_false, a0, a1, a2, a3, Nat.cast_ofNat]
      norm_num
      ring
    rw [← hv]
    exact ⟨key _, key _⟩

/-- **C52 violated (number of blades).** Zero blades are not refused: index -1 selects the table for eight blades. -/
theorem hsNode_zero_violated (i : HSIn α) : hsNode 0 i = hsNode 8 i := rfl

/-- **C52 (activity factor).** The thrust adjustment blends from the first to the second row until advance ratio 1/2, without a jump. -/
theorem afcte_blend (i : HSIn α) : (i.adv = 0 → afcte i = afCT i 0) ∧ (1 / 2 ≤ i.adv → afcte i = afCT i 1) ∧
    (i.adv ≤ 1 / 2 → afcte i = (1 - 2 * i.adv) * afCT i 0 + 2 * i.adv * afCT i 1) := by
  have h3 : i.adv ≤ 1 / 2 → afcte i = (1 - 2 * i.adv) * afCT i 0 + 2 * i.adv * afCT i 1 := by
    intro h; unfold afcte; rw [if_pos h]; ring
  refine ⟨fun h => ?_, fun h => ?_, h3⟩
  · rw [h3 (by rw [h]; norm_num), h]; ring
  · rcases h.eq_or_lt with h | h
    · rw [h3 h.ge, ← h]; ring
    · unfold afcte; rw [if_neg (not_le.2 h)]

/-- **C52 (lift coefficient rows).** A row is used alone only within 0.0009 of it, and then it is the first such row. -/
theorem clNear_spec (cli : α) : (∀ k, clNear cli = some k → k < 6 ∧ |cli - arr Tab.clArr k| ≤ 9 / 10000) ∧
    (clNear cli = none → ∀ k < 6, 9 / 10000 < |cli - arr Tab.clArr k|) := by
  unfold clNear
  refine ⟨fun k h => ⟨List.mem_range.1 (List.mem_of_find?_eq_some h), ?_⟩, fun h k hk => ?_⟩
  · have := List.find?_some h
    exact of_decide_eq_true this
  · have := List.find?_eq_none.1 h k (List.mem_range.2 hk)
    simpa using this

/-- **C52 (table floor).** Arguments below the table are raised to its first entry, others kept. -/
theorem floorAt_spec (first x : α) : first ≤ floorAt first x ∧ (first ≤ x → floorAt first x = x) ∧
    (x ≤ first → floorAt first x = first) := by
  unfold floorAt
  split_ifs with h
  · exact ⟨le_rfl, fun h' => absurd h (not_lt.2 h'), fun _ => rfl⟩
  · exact ⟨not_lt.1 h, fun _ => rfl, fun h' => le_antisymm h' (not_lt.1 h)⟩

/-- **C52 (static and flight).** At rest the result does not depend on the flight Mach number, in flight not on the tip Mach number. -/
theorem hsNode_mach (blades : ℕ) (i : HSIn α) (m : α) : (i.adv = 0 → hsNode blades { i with mach := m } = hsNode blades i) ∧
    (i.adv ≠ 0 → hsNode blades { i with tipMach := m } = hsNode blades i) := by
  have key : ∀ j : HSIn α, (∀ r, dmn j r = dmn i r) → j.act = i.act → j.cli = i.cli → j.adv = i.adv → j.cp = i.cp →
      hsNode blades j = hsNode blades i := by
    rintro ⟨a, c, d, p, mm, t⟩ hd h1 h2 h3 h4
    obtain ⟨a', c', d', p', mm', t'⟩ := i
    simp only at h1 h2 h3 h4
    subst h1 h2 h3 h4
    have hb : ∀ b, bladeRow ⟨a, c, d, p, mm, t⟩ b = bladeRow ⟨a, c, d, p, mm', t'⟩ b := by
      intro b
      have ht : ∀ ct, tipLoss ⟨a, c, d, p, mm, t⟩ b ct = tipLoss ⟨a, c, d, p, mm', t'⟩ b ct := by
        intro ct
        unfold tipLoss
        simp only [hd]
        rfl
      unfold bladeRow
      simp only [ht]
      rfl
    unfold hsNode
    simp only [hb]
  refine ⟨fun h => key _ (fun r => ?_) rfl rfl rfl rfl, fun h => key _ (fun r => ?_) rfl rfl rfl rfl⟩
  · simp [dmn, h]
  · simp [dmn, h]

/-! ## The reference propeller -/

theorem clNear_half : clNear (1 / 2 : α) = some 2 := by
  have e : ∀ k q, Tab.clArr.getD k 0 = q → (arr Tab.clArr k : α) = (q : α) := fun k q h => arr_val _ _ _ h
  unfold clNear
  rw [List.find?_range_eq_some]
  refine ⟨?_, by simp, ?_⟩
  · rw [e 2 (1 / 2) (by decide +kernel)]; norm_num
  · intro k hk
    interval_cases k
    · rw [e 0 (3 / 10) (by decide +kernel)]
      simp only [Bool.not_eq_true', decide_eq_false_iff_not, not_le]
      push_cast
      rw [lt_abs]; left; norm_num
    · rw [e 1 (4 / 10) (by decide +kernel)]
      simp only [Bool.not_eq_true', decide_eq_false_iff_not, not_le]
      push_cast
      rw [lt_abs]; left; norm_num

theorem overCl_half (f : ℕ → α) : overCl (1 / 2 : α) f = f 2 := by unfold overCl; rw [clNear_half]

theorem look_const (n : ℕ) (xs ys : List ℚ) (hx : Axis n xs) (q : ℚ) (hy : ∀ k < n, ys.getD k 0 = q) (x : α) : look n xs ys x = (q : α) :=
  unint_const n _ _ hx.incr hx.1 _ (fun k hk => arr_val _ _ _ (hy k hk)) x

theorem look_node (n : ℕ) (xs ys : List ℚ) (hx : Axis n xs) (m : ℕ) (hm : m < n) : look n xs ys (arr xs m : α) = arr ys m := by
  unfold look; rw [unint_node n _ _ hx.incr m hm]

/-- **C52 (reference lift coefficient).** At the design lift coefficient 0.5 the thrust adjustment is the activity factor adjustment alone. -/
theorem resid_half (i : HSIn α) (hc : i.cli = 1 / 2) (b : ℕ) (ct : α) : resid i b ct = ct * afcte i - cttt i b := by
  have : overCl i.cli (tx i b ct) = 1 := by
    rw [hc, overCl_half]
    simp only [tx]
    rw [look_const _ _ _ (tables_ok.2.2.2.2.2.2.2.2.2.1 2 (by norm_num)).2.2.1 1 (by decide +kernel)]
    norm_num
  rw [resid, this, mul_one]

/-- **C52 (reference lift coefficient, convergence).** There the iteration always ends: the result is within 0.1 percent, or zero if the baseline coefficient is
negative. -/
theorem bladeRow_half (i : HSIn α) (hc : i.cli = 1 / 2) (ha : 0 < afcte i) (b : ℕ) (ht : cttt i b ≠ 0) :
    ∃ v, bladeRow i b = .ok v ∧ ((0 < v.1 ∧ |v.1 * afcte i - cttt i b| < 1 / 1000 * |cttt i b|) ∨ v.1 = 0 ∧ cttt i b < 0) := by
  have hf : resid i b = fun x => afcte i * x + 0 - cttt i b := by funext x; rw [resid_half i hc]; ring
  rcases findCt_affine (afcte i) 0 (cttt i b) ha ht with ⟨ct, h⟩ | ⟨h, hn⟩
  · refine ⟨(ct, tipLoss i b ct), by simp only [bladeRow, hf, h], Or.inl ?_⟩
    obtain ⟨h1, h2⟩ := findCt_found _ _ _ h
    refine ⟨h1, ?_⟩
    rw [show ct * afcte i - cttt i b = afcte i * ct + 0 - cttt i b by ring]
    exact h2
  · refine ⟨(0, tipLoss i b (2 / 10)), by simp only [bladeRow, hf, h], Or.inr ⟨rfl, ?_⟩⟩
    rw [sub_zero, div_nonpos_iff] at hn
    rcases hn with ⟨_, h'⟩ | ⟨h', _⟩
    · exact absurd ha (not_lt.2 h')
    · exact lt_of_le_of_ne h' ht

/-- Activity factor 150 is the reference: all adjustments are 1. -/
theorem af_ref (i : HSIn α) (ha : i.act = 150) (k : ℕ) : afCP i k = 1 ∧ afCT i k = 1 ∧ afcte i = 1 := by
  have e : (150 : α) = arr Tab.actFactor 3 := by rw [arr_val _ 3 150 (by decide +kernel)]; norm_num
  have hk : ∀ k, min k 1 = 0 ∨ min k 1 = 1 := by intro k; omega
  have h1 : ∀ k, afCP i k = 1 := by
    intro k
    unfold afCP
    rw [ha, e, look_node 6 _ _ tables_ok.1 3 (by norm_num)]
    rcases hk k with h | h <;> rw [h, arr_val _ 3 1 (by decide +kernel)] <;> norm_num
  have h2 : ∀ k, afCT i k = 1 := by
    intro k
    unfold afCT
    rw [ha, e, look_node 6 _ _ tables_ok.1 3 (by norm_num)]
    rcases hk k with h | h <;> rw [h, arr_val _ 3 1 (by decide +kernel)] <;> norm_num
  refine ⟨h1 k, h2 k, ?_⟩
  unfold afcte
  split_ifs
  · rw [h2, h2]; ring
  · exact h2 1

/-- The window of a tabulated advance ratio contains it. -/
theorem jBegin_node (k : ℕ) (hk : k < 7) : jBegin (arr Tab.advArr k : α) ≤ k ∧ k < jBegin (arr Tab.advArr k : α) + 4 := by
  have e : ∀ k q, Tab.advArr.getD k 0 = q → (arr Tab.advArr k : α) = (q : α) := fun k q h => arr_val _ _ _ h
  interval_cases k
  · rw [e 0 0 (by decide +kernel)]; norm_num [jBegin]
  · rw [e 1 (1 / 2) (by decide +kernel)]; norm_num [jBegin]
  · rw [e 2 1 (by decide +kernel)]; norm_num [jBegin]
  · rw [e 3 (3 / 2) (by decide +kernel)]; norm_num [jBegin]
  · rw [e 4 2 (by decide +kernel)]; norm_num [jBegin]
  · rw [e 5 3 (by decide +kernel)]; norm_num [jBegin]
  · rw [e 6 5 (by decide +kernel)]; norm_num [jBegin]

/-- **C52 (published points).** For the reference propeller (activity factor 150, design lift coefficient 0.5) with any even number of blades, at any tabulated
advance ratio and power coefficient, the baseline thrust coefficient is the tabulated one, and a positive one is met within 0.1 percent. -/
theorem published_points (i : HSIn α) (ha : i.act = 150) (hc : i.cli = 1 / 2) (b k m : ℕ) (hb : b < 4) (hk : k < 7)
    (hm : m < Tab.angLen.getD k 0) (hadv : i.adv = arr Tab.advArr k) (hcp : i.cp = arr (row3 Tab.cpAngle b k) m) :
    cttt i b = arr (row3 Tab.ctAngle b k) m ∧
    ((0 : α) < arr (row3 Tab.ctAngle b k) m → ∃ v, hsNode (2 * (b + 1)) i = .ok v ∧
      |v.1 - arr (row3 Tab.ctAngle b k) m| < 1 / 1000 * arr (row3 Tab.ctAngle b k) m) := by
  have hT := tables_ok.2.2.2.2.2.2.2.2.2.2.1 k hk
  have hctt : ctt i b k = arr (row3 Tab.ctAngle b k) m := by
    have hpx : ∀ z : α, look (Tab.cliLen.getD 2 0) (row Tab.cpCli 2) (row Tab.xpcli 2) z = 1 := by
      intro z
      rw [look_const _ _ _ (tables_ok.2.2.2.2.2.2.2.2.2.1 2 (by norm_num)).1 1 (by decide +kernel)]
      norm_num
    simp only [ctt]
    rw [hc, overCl_half, hpx, (af_ref i ha k).1, mul_one, mul_one, hcp, look_node _ _ _ (hT.2 b hb).1 m hm, look_node _ _ _ hT.1 m hm]
  have hcttt : cttt i b = arr (row3 Tab.ctAngle b k) m := by
    obtain ⟨h1, h2⟩ := jBegin_node (α := α) k hk
    unfold cttt
    rw [hadv]
    set B := jBegin (arr Tab.advArr k : α) with hB
    have hx : Incr 4 (fun m => (arr Tab.advArr (B + m) : α)) := incr_shift (tables_ok.2.2.2.2.2.2.1.incr) (jBegin_le _)
    have hn := unint_node 4 (fun m => (arr Tab.advArr (B + m) : α)) (fun m => ctt i b (B + m)) hx (k - B) (by omega)
    simp only [show B + (k - B) = k by omega] at hn
    rw [hn]
    exact hctt
  refine ⟨hcttt, fun hpos => ?_⟩
  have haf := (af_ref i ha 0).2.2
  obtain ⟨v, hv, h⟩ := bladeRow_half i hc (by rw [haf]; exact one_pos) b (by rw [hcttt]; exact hpos.ne')
  refine ⟨v, ?_, ?_⟩
  · rw [← hv]; unfold hsNode
    rw [if_pos (by omega), if_neg (by omega), show 2 * (b + 1) / 2 - 1 = b by omega, if_pos hb]
  · rw [hcttt, haf, mul_one] at h
    rcases h with ⟨_, h⟩ | ⟨_, h⟩
    · rwa [abs_of_pos hpos] at h
    · exact absurd h (not_lt.2 hpos.le)

/-- The reference propeller with four blades at advance ratio 1 and power coefficient 0.2578. -/
def refProp : HSIn ℚ := { act := 150, cli := 1 / 2, adv := 1, cp := 2578 / 10000, mach := 1 / 10, tipMach := 7 / 10 }

example : refProp.adv = arr Tab.advArr 2 ∧ refProp.cp = arr (row3 Tab.cpAngle 1 2) 4 ∧ 4 < Tab.angLen.getD 2 0 ∧
    (arr (row3 Tab.ctAngle 1 2) 4 : ℚ) = 2032 / 10000 := by decide +kernel

example : hsNode 4 refProp = .ok (2032 / 10000, 1) := by decide +kernel

example : (hsNode 3 { refProp with cp := 1 / 10, cli := 45 / 100, mach := 4 / 10 }).toOption.isSome = true := by decide +kernel

end Verif.HS
