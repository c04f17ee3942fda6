import Verif.Model.AeroGrid
import Verif.Props.Interpolator
import Mathlib.Data.List.GetD
import Mathlib.Tactic.Linarith

/-! # Properties of the tables of the GASP based aerodynamics -/

namespace Verif.AeroGrid

/-- A table with a block of angles per pair of the other two variables, the first of them slowest. -/
def table (x0 x1 : List ℚ) (f : ℚ → ℚ → List ℚ) : List Row :=
  x0.flatMap fun p => x1.flatMap fun q => (f p q).map fun r => (p, q, r)

theorem mem_table {x0 x1 : List ℚ} {f : ℚ → ℚ → List ℚ} {r : Row} :
    r ∈ table x0 x1 f ↔ r.1 ∈ x0 ∧ r.2.1 ∈ x1 ∧ r.2.2 ∈ f r.1 r.2.1 := by
  obtain ⟨p, q, a⟩ := r
  simp only [table, List.mem_flatMap, List.mem_map, Prod.mk.injEq]
  constructor
  · rintro ⟨p', hp, q', hq, a', ha, rfl, rfl, rfl⟩; exact ⟨hp, hq, ha⟩
  · rintro ⟨hp, hq, ha⟩; exact ⟨p, hp, q, hq, a, ha, rfl, rfl, rfl⟩

theorem unique_fst {x0 x1 : List ℚ} {f : ℚ → ℚ → List ℚ} (h0 : x0.Pairwise (· < ·)) (h1 : x1 ≠ [])
    (hf : ∀ p ∈ x0, ∀ q ∈ x1, f p q ≠ []) : npUnique ((table x0 x1 f).map fun r => r.1) = x0 := by
  apply npUnique_of_mem _ _ h0
  intro x
  simp only [List.mem_map, mem_table]
  constructor
  · rintro ⟨r, ⟨h, -, -⟩, rfl⟩; exact h
  · intro hx
    obtain ⟨q, hq⟩ := List.exists_mem_of_ne_nil _ h1
    obtain ⟨a, ha⟩ := List.exists_mem_of_ne_nil _ (hf x hx q hq)
    exact ⟨(x, q, a), ⟨hx, hq, ha⟩, rfl⟩

theorem unique_snd {x0 x1 : List ℚ} {f : ℚ → ℚ → List ℚ} (h0 : x0 ≠ []) (h1 : x1.Pairwise (· < ·))
    (hf : ∀ p ∈ x0, ∀ q ∈ x1, f p q ≠ []) : npUnique ((table x0 x1 f).map fun r => r.2.1) = x1 := by
  apply npUnique_of_mem _ _ h1
  intro x
  simp only [List.mem_map, mem_table]
  constructor
  · rintro ⟨r, ⟨-, h, -⟩, rfl⟩; exact h
  · intro hx
    obtain ⟨p, hp⟩ := List.exists_mem_of_ne_nil _ h0
    obtain ⟨a, ha⟩ := List.exists_mem_of_ne_nil _ (hf p hp x hx)
    exact ⟨(p, x, a), ⟨hp, hx, ha⟩, rfl⟩

theorem flatMap_const (l : List ℚ) (a : List ℚ) : (l.flatMap fun _ => a) = (List.replicate l.length a).flatten := by
  induction l with
  | nil => simp
  | cons x l ih => simp [List.replicate_succ, ih]

theorem flatMap_flatMap_const (x0 x1 a : List ℚ) :
    (x0.flatMap fun _ => x1.flatMap fun _ => a) = (List.replicate (x0.length * x1.length) a).flatten := by
  induction x0 with
  | nil => simp
  | cons x l ih =>
    rw [List.flatMap_cons, ih, flatMap_const, List.length_cons, Nat.succ_mul, Nat.add_comm, List.replicate_add, List.flatten_append]

/-- Every pair gets the angles of the first pair, sorted and without repetition, whatever its own angles are. -/
theorem special_spec (p0 q0 : ℚ) (x0 x1 : List ℚ) (f : ℚ → ℚ → List ℚ) (h0 : (p0 :: x0).Pairwise (· < ·)) (h1 : (q0 :: x1).Pairwise (· < ·))
    (hf : ∀ p ∈ p0 :: x0, ∀ q ∈ q0 :: x1, f p q ≠ []) (hl : (p0 :: x0).length < (table (p0 :: x0) (q0 :: x1) f).length)
    (a : List ℚ) (ha : a.Pairwise (· < ·)) (hm : ∀ r, r ∈ f p0 q0 ↔ r ∈ a) :
    special (table (p0 :: x0) (q0 :: x1) f) = (table (p0 :: x0) (q0 :: x1) fun _ _ => a).map fun r => r.2.2 := by
  have e0 := unique_fst h0 (List.cons_ne_nil q0 x1) hf
  have e1 := unique_snd (List.cons_ne_nil p0 x0) h1 hf
  have ea : angles (table (p0 :: x0) (q0 :: x1) f) = a := by
    unfold angles
    simp only [e0, e1, if_pos hl, List.getD_cons_zero]
    apply npUnique_of_mem _ _ ha
    intro x
    simp only [List.mem_map, List.mem_filter, mem_table, Bool.and_eq_true, beq_iff_eq]
    rw [← hm]
    constructor
    · rintro ⟨⟨p, q, r⟩, ⟨⟨-, -, h⟩, rfl, rfl⟩, rfl⟩; exact h
    · intro h; exact ⟨(p0, q0, x), ⟨⟨by simp, by simp, h⟩, rfl, rfl⟩, rfl⟩
  rw [special, e0, e1, ea]
  have : ((table (p0 :: x0) (q0 :: x1) fun _ _ => a).map fun r => r.2.2) =
      ((p0 :: x0).flatMap fun _ => (q0 :: x1).flatMap fun _ => a) := by
    simp only [table, List.map_flatMap, List.map_map]
    congr 1; funext p; congr 1; funext q
    simp [Function.comp_def]
  rw [this, flatMap_flatMap_const]

theorem table_length_const (x0 x1 a : List ℚ) : (table x0 x1 fun _ _ => a).length = x0.length * (x1.length * a.length) := by
  simp [table, List.length_flatMap, List.map_const', List.sum_replicate]

/-- On a full grid with at least two rows per value of the first variable nothing changes. -/
theorem special_grid (x0 x1 a : List ℚ) (h0 : x0.Pairwise (· < ·)) (h1 : x1.Pairwise (· < ·)) (ha : a.Pairwise (· < ·))
    (hn : x0 ≠ []) (hl : 1 < x1.length * a.length) :
    special (table x0 x1 fun _ _ => a) = (table x0 x1 fun _ _ => a).map fun r => r.2.2 := by
  obtain ⟨p0, x0, rfl⟩ := List.exists_cons_of_ne_nil hn
  have h1n : x1 ≠ [] := by rintro rfl; simp at hl
  have han : a ≠ [] := by rintro rfl; simp at hl
  obtain ⟨q0, x1, rfl⟩ := List.exists_cons_of_ne_nil h1n
  refine special_spec p0 q0 x0 x1 _ h0 h1 (fun _ _ _ _ => han) ?_ a ha fun _ => Iff.rfl
  rw [table_length_const]
  have : (p0 :: x0).length * 1 < (p0 :: x0).length * ((q0 :: x1).length * a.length) :=
    Nat.mul_lt_mul_of_pos_left hl (by simp)
  omega

/-- The new column fits to the others exactly when the rows are as many as pairs times angles of the first pair. -/
theorem special_length (rows : List Row) :
    (special rows).length =
      (npUnique (rows.map fun r => r.1)).length * (npUnique (rows.map fun r => r.2.1)).length * (angles rows).length := by
  simp [special, List.length_flatten, List.map_replicate, List.sum_replicate]

/-- The order of the rows matters: a full grid with the angle slowest gets the angles of other rows. -/
theorem row_order_violated : ∃ rows : List Row, rows.Perm (table [0] [0, 1] fun _ _ => [1, 2]) ∧
    special rows ≠ rows.map fun r => r.2.2 :=
  ⟨[(0, 0, 1), (0, 1, 1), (0, 0, 2), (0, 1, 2)], by decide +kernel, by decide +kernel⟩

/-- A grid with one value of the second variable and one angle is blown up. -/
theorem single_angle_violated : (special (table [0, 1] [0] fun _ _ => [5])).length ≠ (table [0, 1] [0] fun _ _ => [5]).length := by
  decide +kernel

/-- A table whose first pair has fewer angles than the others does not fit any more. -/
theorem short_first_violated :
    (special [(0, 0, 1), (0, 1, 1), (0, 1, 2)]).length ≠ 3 := by
  decide +kernel

/-- A saturated table: the second pair repeats its highest angle; the number of rows stays and the angles are those of the first. -/
example : special (table [0] [0, 1] fun _ q => if q = 0 then [1, 2, 3] else [1, 2, 2]) = [1, 2, 3, 1, 2, 3] := by decide +kernel

/-! ### Largest lift -/

theorem getElem_blocks (n a : Nat) (g : Nat → ℚ) (i k : Nat) (hi : i < n) (hk : k < a) :
    ((List.range n).flatMap fun j => List.replicate a (g j)).getD (i * a + k) 0 = g i := by
  induction n generalizing i g with
  | zero => omega
  | succ n ih =>
    rw [List.range_succ_eq_map, List.flatMap_cons, List.flatMap_map]
    cases i with
    | zero =>
      rw [List.getD_append _ _ _ _ (by simpa using hk)]
      simp [List.getD_eq_getElem?_getD, hk]
    | succ i =>
      rw [List.getD_append_right _ _ _ _ (by simp [Nat.succ_mul]; omega)]
      have : (i + 1) * a + k - (List.replicate a (g 0)).length = i * a + k := by
        rw [List.length_replicate, Nat.succ_mul]; omega
      rw [this]
      exact ih (fun j => g (j + 1)) i (by omega)

theorem flatMap_range_mul (d m : Nat) (g : Nat → List ℚ) :
    ((List.range d).flatMap fun i => (List.range m).flatMap fun j => g (i * m + j)) = (List.range (d * m)).flatMap g := by
  induction d with
  | zero => simp
  | succ d ih =>
    rw [List.range_succ, List.flatMap_append, ih, Nat.succ_mul, List.range_add, List.flatMap_append, List.flatMap_map]
    simp

/-- Every entry becomes the one of the last angle of its pair. -/
theorem dclMax_entry (d m a : Nat) (flat r : List ℚ) (h : dclMax d m a flat = .ok r) (i j k : Nat) (hi : i < d) (hj : j < m) (hk : k < a) :
    r.getD ((i * m + j) * a + k) 0 = flat.getD ((i * m + j) * a + (a - 1)) 0 := by
  unfold dclMax at h
  split_ifs at h
  simp only [Except.ok.injEq] at h
  subst h
  rw [flatMap_range_mul d m fun n => List.replicate a (flat.getD (n * a + (a - 1)) 0)]
  refine getElem_blocks (d * m) a (fun n => flat.getD (n * a + (a - 1)) 0) (i * m + j) k ?_ hk
  calc i * m + j < i * m + m := by omega
    _ = (i + 1) * m := by ring
    _ ≤ d * m := Nat.mul_le_mul_right _ hi

theorem dclMax_length (d m a : Nat) (flat r : List ℚ) (h : dclMax d m a flat = .ok r) : r.length = flat.length := by
  unfold dclMax at h
  split_ifs at h with h1 h2
  simp only [Except.ok.injEq] at h
  subst h
  simp only [ne_eq, not_not] at h1
  rw [h1]
  simp [List.length_flatMap, List.map_const', List.sum_replicate, Nat.mul_assoc]

/-- It is computed for every table with as many rows as the product of the axes. -/
theorem dclMax_ok_iff (d m a : Nat) (flat : List ℚ) (ha : 0 < a) : (∃ r, dclMax d m a flat = .ok r) ↔ flat.length = d * m * a := by
  unfold dclMax
  have : a ≠ 0 := by omega
  by_cases h : flat.length = d * m * a <;> simp [h, this]

/-- Which of the two other variables comes first does not matter. -/
theorem dclMax_comm (d m a : Nat) (flat : List ℚ) (ha : 0 < a) : dclMax d m a flat = dclMax m d a flat := by
  unfold dclMax
  have h0 : a ≠ 0 := by omega
  rw [flatMap_range_mul d m fun n => List.replicate a (flat.getD (n * a + (a - 1)) 0),
    flatMap_range_mul m d fun n => List.replicate a (flat.getD (n * a + (a - 1)) 0), Nat.mul_comm d m]
  simp [h0]

/-- For lift increments that grow with the angle the result is a least upper bound of the pair. -/
theorem dclMax_max_partial (d m a : Nat) (flat r : List ℚ) (h : dclMax d m a flat = .ok r) (i j k : Nat) (hi : i < d) (hj : j < m) (hk : k < a)
    (hm : ∀ k' l, k' ≤ l → l < a → flat.getD ((i * m + j) * a + k') 0 ≤ flat.getD ((i * m + j) * a + l) 0) :
    (∀ l < a, flat.getD ((i * m + j) * a + l) 0 ≤ r.getD ((i * m + j) * a + k) 0) ∧
    ∃ l < a, flat.getD ((i * m + j) * a + l) 0 = r.getD ((i * m + j) * a + k) 0 := by
  rw [dclMax_entry d m a flat r h i j k hi hj hk]
  exact ⟨fun l hl => hm l (a - 1) (by omega) (by omega), a - 1, by omega, rfl⟩

/-- With a stall in the table it is not the largest value. -/
theorem dclMax_stall_violated : ∃ r, dclMax 1 1 3 [1, 3, 2] = .ok r ∧ r.getD 0 0 < 3 := ⟨_, rfl, by decide +kernel⟩

/-- The lift at the last angle for every value of the second axis, at the first value of the first axis. -/
theorem clMax_entry (n1 a : Nat) (flat : List ℚ) (j : Nat) (hj : j < n1) : (clMax n1 a flat).getD j 0 = flat.getD ((0 * n1 + j) * a + (a - 1)) 0 := by
  simp [clMax, List.getD_eq_getElem?_getD, hj]

theorem clMax_length (n1 a : Nat) (flat : List ℚ) : (clMax n1 a flat).length = n1 := by simp [clMax]

/-- The second axis has to be the Mach number: with the Mach number first there is a value per altitude, which fits only by chance. -/
theorem clMax_axes_violated (nMach nAlt a : Nat) (flat : List ℚ) : (clMax nAlt a flat).length = nMach ↔ nAlt = nMach := by
  rw [clMax_length]

/-! ### Checks -/

/-- Without connected training data a table is accepted exactly when nothing is missing. -/
theorem check_ok_iff (t : Table) (keys : List String) :
    check t false keys = .ok () ↔ (∀ k ∈ reqIn t, k ∈ keys) ∧ ∀ k ∈ reqOut t, k ∈ keys := by
  have hall : ∀ l : List String, l.all keys.contains = true ↔ ∀ k ∈ l, k ∈ keys := by
    intro l; simp [List.all_eq_true]
  have hlen : (∀ k ∈ reqIn t, k ∈ keys) → 2 ≤ keys.length ∧ "angle_of_attack" ∈ keys := by
    intro h
    have ha : "angle_of_attack" ∈ keys := h _ (by cases t <;> simp [reqIn])
    have hm : "mach" ∈ keys := h _ (by cases t <;> simp [reqIn])
    refine ⟨?_, ha⟩
    match keys, ha, hm with
    | [x], ha, hm => simp only [List.mem_singleton] at ha hm; exact absurd (ha.trans hm.symm) (by decide)
    | _ :: _ :: _, _, _ => simp
  by_cases hi : ∀ k ∈ reqIn t, k ∈ keys
  · have hs : structureErr t keys = none := by
      have := hlen hi
      unfold structureErr
      split_ifs <;> first | rfl | omega | exact absurd this.2 ‹_›
    have hi' := (hall _).2 hi
    by_cases ho : ∀ k ∈ reqOut t, k ∈ keys
    · have ho' := (hall _).2 ho
      have hd : (decide (t ≠ .free) && !keys.contains "delta_lift_coefficient") = false := by
        cases t
        · rfl
        · simpa using ho _ (by simp [reqOut])
        · simpa using ho _ (by simp [reqOut])
      simp only [check, hs, hi', ho', hd]
      simpa using ⟨hi, ho⟩
    · have ho' : (reqOut t).all keys.contains = false := by rw [← Bool.not_eq_true, hall]; exact ho
      simp only [check, hs, hi', ho']
      simpa using fun _ => by simpa using ho
  · have hi' : (reqIn t).all keys.contains = false := by rw [← Bool.not_eq_true, hall]; exact hi
    constructor
    · intro h
      unfold check at h
      split at h
      · cases h
      · simp [hi'] at h
    · intro h; exact absurd h.1 hi

/-- With connected training data the free table needs only its inputs, flaps and ground still need the increments. -/
theorem check_connect_violated (t : Table) : check t true (reqIn t) = .ok () ↔ t = .free := by
  cases t <;> decide

/-- The largest lift is promoted although it does not exist with connected training data. -/
theorem promoted_exists_iff (t : Table) (c : Bool) : (∀ o ∈ promoted t, o ∈ outputs t c) ↔ ¬(t = .free ∧ c = true) := by
  cases t <;> cases c <;> decide

/-- The method given is never used. -/
theorem method_violated (c : Bool) (m : String) (h1 : m ≠ "lagrange2") (h2 : m ≠ "3D-lagrange2") : method c m ≠ m := by
  cases c
  · exact fun h => h2 h.symm
  · exact fun h => h1 h.symm

/-! ### Ramps -/

/-- The gear ramps down when it is retracted. -/
theorem gear_ramp (g f : Bool) : (lowSpeed g f).gearUp = !g ∧ ((lowSpeed g f).dtGear = none ↔ g = false) := by
  cases g <;> cases f <;> decide

/-- The flaps follow their own option exactly when it agrees with the one of the gear. -/
theorem flaps_ramp_violated (g f : Bool) :
    ((lowSpeed g f).flapsDragUp = !f ↔ g = f) ∧ ((lowSpeed g f).flapsLiftUp = !f ↔ g = f) := by
  cases g <;> cases f <;> decide

/-- The deflection does follow it. -/
theorem flap_defaults (g f : Bool) :
    ((lowSpeed g f).flapDefl = if f then 10 else 40) ∧ (lowSpeed g f).dtFlaps = if f then some 3 else none := ⟨rfl, rfl⟩

end Verif.AeroGrid
