import Verif.Model.NacelleIndex
import Verif.Lemmas.VecDeriv
import Mathlib.Analysis.SpecialFunctions.Sqrt
import Mathlib.Analysis.Calculus.Deriv.Inv
import Mathlib.Analysis.Calculus.Deriv.Mul
import Mathlib.Data.List.Nodup
import Mathlib.Tactic.Linarith
import Mathlib.Tactic.Ring
import Mathlib.Tactic.FieldSimp
import Mathlib.Tactic.Positivity
import Mathlib.Tactic.Tauto

/-!
# Nacelle fineness ratios and the vectors of the drag components
-/

namespace Verif.NacIdx
open Real

/-! ## C111 -/

theorem mem_numIdx (num : List ℕ) (i : ℕ) : i ∈ numIdx num ↔ i < num.length ∧ 1 ≤ num.getD i 0 := by
  simp [numIdx]

theorem range_filter_lt (n k : ℕ) (h : k ≤ n) (p : ℕ → Bool) (hp : ∀ i < n, p i = decide (i < k)) :
    (List.range n).filter p = List.range k := by
  obtain ⟨m, rfl⟩ := Nat.exists_eq_add_of_le h
  rw [List.range_add, List.filter_append]
  have h1 : (List.range k).filter p = List.range k := by
    rw [List.filter_eq_self]; intro i hi
    have := List.mem_range.1 hi
    rw [hp i (by omega)]; simpa using this
  have h2 : ((List.range m).map (k + ·)).filter p = [] := by
    rw [List.filter_eq_nil_iff]; intro i hi
    obtain ⟨j, hj, rfl⟩ := List.mem_map.1 hi
    have := List.mem_range.1 hj
    rw [hp _ (by omega)]; simp
  rw [h1, h2, List.append_nil]

/-- When the types with engines are the first `k`, the selected indices are `0 … k-1`. -/
theorem numIdx_prefix (num : List ℕ) (k : ℕ) (hk : k ≤ num.length)
    (h : ∀ i < num.length, (1 ≤ num.getD i 0 ↔ i < k)) : numIdx num = List.range k := by
  unfold numIdx
  refine range_filter_lt _ _ hk _ fun i hi => ?_
  simp only [ge_iff_le, h i hi]

/-- Fineness ratio that is meant: length over diameter for a type with engines and a positive diameter, 1 for a type
with engines and no diameter, 0 for a type without engines. -/
def meant (n : ℕ) (len diam : ℚ) : Option ℚ :=
  some (if 1 ≤ n then (if 0 < diam then len / diam else 1) else 0)

/-- The fineness ratios are the meant ones whenever the types with engines come before those without (in particular
when every type has an engine). The full property, for every order of the types, is violated below. -/
theorem fineness_partial (num : List ℕ) (k : ℕ) (hk : k ≤ num.length)
    (h : ∀ i < num.length, (1 ≤ num.getD i 0 ↔ i < k)) (len diam : ℕ → ℚ) (i : ℕ) (hi : i < num.length) :
    fineness num len diam i = meant (num.getD i 0) (len i) (diam i) := by
  have hn := numIdx_prefix num k hk h
  have hc : i ∈ calcIdx num diam ↔ i < k ∧ 0 < diam i := by
    simp only [calcIdx, posIdx, hn, List.mem_filter, List.mem_range, List.length_range, decide_eq_true_eq]
    constructor
    · rintro ⟨⟨h1, h2⟩, _⟩
      refine ⟨h1, ?_⟩
      simpa [List.getD, h1] using h2
    · rintro ⟨h1, h2⟩
      refine ⟨⟨h1, ?_⟩, h1⟩
      simpa [List.getD, h1] using h2
  unfold fineness meant
  rw [hn]
  simp only [hc, List.mem_range, h i hi]
  by_cases h1 : i < k
  · by_cases h2 : 0 < diam i
    · simp [h1, h2, h2.ne']
    · simp [h1, h2]
  · simp [h1]

example : ∀ i < 3, fineness [2, 1, 0] (fun _ => 10) (fun j => if j = 0 then 5 else 0) i =
    meant ([2, 1, 0].getD i 0) 10 (if i = 0 then 5 else 0) := by decide +kernel

/-- An engine type without engines before one with engines: the fineness ratio of the second is reported as 1 whatever
its length and diameter. -/
theorem fineness_violated (n : ℕ) (len diam : ℕ → ℚ) (hn : 1 ≤ n) :
    fineness [0, n] len diam 1 = some 1 := by
  have h1 : numIdx [0, n] = [1] := by
    simp only [numIdx, List.length_cons, List.length_nil, List.range_succ, List.range_zero]
    simp [hn]
  have h2 : 1 ∉ calcIdx [0, n] diam := by
    simp only [calcIdx, posIdx, h1, List.mem_filter, List.mem_range, List.length_singleton]
    omega
  unfold fineness
  rw [if_neg h2, h1]; simp

/-- With three types the index can even divide by a diameter of 0 although a nacelle exists with a positive one. -/
theorem fineness_undefined_violated :
    ∃ (num : List ℕ) (len diam : ℕ → ℚ), fineness num len diam 1 = none ∧ 1 ≤ num.getD 1 0 ∧
      meant (num.getD 1 0) (len 1) (diam 1) ≠ none :=
  ⟨[0, 1, 1], fun _ => 1, fun i => if i = 1 then 0 else 2, by decide +kernel, by decide, by decide +kernel⟩

/-- The characteristic length is the adjusted length exactly for the types with engines. -/
theorem charLen_spec (num : List ℕ) (len : ℕ → ℚ) (i : ℕ) (hi : i < num.length) :
    charLen num len i = if 1 ≤ num.getD i 0 then len i else 0 := by
  unfold charLen; simp only [mem_numIdx, hi, true_and]

theorem numIdx_length_le (num : List ℕ) : (numIdx num).length ≤ num.length := by
  simpa [numIdx] using List.length_filter_le (fun i => decide (num.getD i 0 ≥ 1)) (List.range num.length)

/-- The partials can be computed exactly when there is one engine type or every type has an engine. -/
theorem partials_run_iff (num : List ℕ) :
    partialsRun num = true ↔ num.length = 1 ∨ ∀ i < num.length, 1 ≤ num.getD i 0 := by
  unfold partialsRun assigns
  simp only [Bool.or_eq_true, decide_eq_true_eq]
  rw [or_comm]
  refine or_congr Iff.rfl ?_
  constructor
  · intro h i hi
    have hs : (numIdx num).length = (List.range num.length).length := by simpa using h.symm
    have := (List.length_filter_eq_length_iff (p := fun i => decide (num.getD i 0 ≥ 1)) (l := List.range num.length)).1 hs
      i (List.mem_range.2 hi)
    simpa using this
  · intro h
    have := numIdx_prefix num num.length le_rfl (fun i hi => ⟨fun _ => hi, fun _ => h i hi⟩)
    rw [this, List.length_range]

/-- Two types of which one has no engine: the partials raise an exception. -/
theorem partials_violated (n : ℕ) : partialsRun [n, 0] = false := by
  rw [Bool.eq_false_iff]; intro h
  rcases (partials_run_iff _).1 h with h | h
  · simp at h
  · simpa using h 1 (by simp)

/-- The partials of the characteristic length are its derivatives by length, thrust and reference thrust. -/
theorem charLen_partials (l t r : ℝ) (ht : 0 < t) (hr : 0 < r) :
    HasDerivAt (fun x => lenOf x t r) (dLenL t r) l ∧ HasDerivAt (fun x => lenOf l x r) (dLenT l t r) t ∧
    HasDerivAt (fun x => lenOf l t x) (dLenR l t r) r := by
  have hq : 0 < t / r := by positivity
  refine ⟨?_, ?_, ?_⟩
  · exact hd_congr ((hasDerivAt_id l).mul_const (√(t / r))) (fun x => rfl) rfl
  · have h := (((hasDerivAt_id t).div_const r).sqrt hq.ne').const_mul l
    refine hd_congr h (fun x => rfl) ?_
    unfold dLenT
    have := (sqrt_pos.2 hq).ne'
    simp only [id]
    field_simp
    ring
  · have h := ((((hasDerivAt_id r).inv hr.ne').const_mul t).sqrt (by simpa [div_eq_mul_inv] using hq.ne')).const_mul l
    refine hd_congr h (fun x => by simp [lenOf, div_eq_mul_inv]) ?_
    unfold dLenR
    have := (sqrt_pos.2 hq).ne'
    have e : t * (id⁻¹ : ℝ → ℝ) r = t / r := by simp [div_eq_mul_inv]
    rw [e]
    simp only [id]
    field_simp
    ring

/-- The fineness ratio does not depend on the thrust and its partials are its derivatives. -/
theorem fineness_partials (l d t r : ℝ) (hd : d ≠ 0) (ht : 0 < t) (hr : 0 < r) :
    fineOf l d t r = l / d ∧ HasDerivAt (fun x => fineOf x d t r) (dFineL d t r) l ∧
    HasDerivAt (fun x => fineOf l x t r) (dFineD l d) d := by
  have hs : √(t / r) ≠ 0 := (sqrt_pos.2 (by positivity)).ne'
  have e : ∀ a b : ℝ, fineOf a b t r = a / b := fun a b => by unfold fineOf; rw [mul_div_mul_right _ _ hs]
  refine ⟨e l d, ?_, ?_⟩
  · refine hd_congr ((hasDerivAt_id l).div_const d) (fun x => e x d) ?_
    unfold dFineL; field_simp
  · have h := ((hasDerivAt_id d).inv hd).const_mul l
    refine hd_congr h (fun x => by rw [e]; simp [div_eq_mul_inv]) ?_
    unfold dFineD; simp only [id]; ring

/-! ### The vectors of the drag components -/

/-- FLOPS order: wing, horizontal tails, vertical tails, fuselages, then one entry per engine. -/
def order (c : Counts) : List (Src × ℕ) :=
  (.wing, 0) :: (List.replicate c.h (.htail, 0) ++ List.replicate c.v (.vtail, 0) ++
    List.replicate c.f (.fuselage, 0) ++ (tiled c.engines 0).map (fun i => (.nacelle, i)))

theorem tiled_length (es : List ℕ) (i : ℕ) : (tiled es i).length = es.sum := by
  induction es generalizing i with
  | nil => rfl
  | cons n r ih =>
    simp only [tiled, List.length_append, ih, List.sum_cons]
    split
    · simp
    · simp; omega

theorem colsOf_aux (es : List ℕ) (i : ℕ) :
    ((es.zipIdx i).map fun p => List.replicate p.1 p.2).flatten = tiled es i := by
  induction es generalizing i with
  | nil => rfl
  | cons n r ih =>
    simp only [List.zipIdx_cons, List.map_cons, List.flatten_cons, tiled, ih]
    congr 1
    split
    · rfl
    · have : n = 0 := by omega
      subst this; rfl

/-- The columns declared for the nacelle partials are the entries that the loop of `compute` copies. -/
theorem cols_eq (es : List ℕ) : colsOf es = tiled es 0 := colsOf_aux es 0

/-- Entry `j` of the nacelle part comes from the type whose engines, counted in order of the types, include the `j`-th. -/
theorem tiled_count (es : List ℕ) (i k : ℕ) : (tiled es i).count (i + k) = es.getD k 0 := by
  induction es generalizing i k with
  | nil => simp [tiled]
  | cons n r ih =>
    have hnot : ∀ (es : List ℕ) (a b : ℕ), b < a → b ∉ tiled es a := by
      intro es
      induction es with
      | nil => intro a b _ h; simp [tiled] at h
      | cons m s ihs =>
        intro a b hab h
        simp only [tiled, List.mem_append] at h
        rcases h with h | h
        · split at h
          · have := List.eq_of_mem_replicate h; omega
          · simp at h
        · exact ihs (a + 1) b (by omega) h
    simp only [tiled, List.count_append]
    have h1 : (if n > 0 then List.replicate n i else []) = List.replicate n i := by
      split
      · rfl
      · have : n = 0 := by omega
        subst this; rfl
    rw [h1]
    cases k with
    | zero =>
      rw [Nat.add_zero, List.count_replicate_self, List.count_eq_zero_of_not_mem (hnot r (i + 1) i (by omega))]
      simp
    | succ k =>
      have := ih (i + 1) k
      rw [show i + (k + 1) = i + 1 + k by ring, this, List.count_replicate]
      have : (i == i + 1 + k) = false := by simp; omega
      simp [this]

theorem tiled_sorted (es : List ℕ) (i : ℕ) : (tiled es i).Pairwise (· ≤ ·) ∧ ∀ x ∈ tiled es i, i ≤ x := by
  induction es generalizing i with
  | nil => simp [tiled]
  | cons n r ih =>
    obtain ⟨h1, h2⟩ := ih (i + 1)
    have hr : ∀ x ∈ (if n > 0 then List.replicate n i else []), x = i := by
      intro x hx; split at hx
      · exact List.eq_of_mem_replicate hx
      · simp at hx
    constructor
    · simp only [tiled, List.pairwise_append]
      refine ⟨?_, h1, ?_⟩
      · split
        · simp [List.pairwise_replicate]
        · simp
      · intro a ha b hb; have := hr a ha; have := h2 b hb; omega
    · intro x hx
      simp only [tiled, List.mem_append] at hx
      rcases hx with hx | hx
      · exact (hr x hx).ge
      · have := h2 x hx; omega

theorem block_eq (ic n : ℕ) (s : Src) : (if n > 0 then block ic n s else []) = block ic n s := by
  split
  · rfl
  · have : n = 0 := by omega
    subst this; rfl

theorem ite_add (ic n : ℕ) : (if n > 0 then ic + n else ic) = ic + n := by split <;> omega

theorem nc_eq (c : Counts) : c.nc = 1 + c.h + c.v + c.f + c.nac := by
  simp only [Counts.nc, ite_add]

theorem range_map_getD (l : List ℕ) (g : ℕ → ℕ → ℕ × Src × ℕ) :
    (List.range l.length).map (fun j => g j (l.getD j 0)) = ((List.range l.length).zip l).map fun p => g p.1 p.2 := by
  apply List.ext_getElem
  · simp
  · intro j h1 h2
    have hj : j < l.length := by simpa using h1
    simp [hj]

/-- `compute` runs exactly when there is an engine, and then assigns exactly the entries that `setup_partials` declares
with derivative 1: rows, inputs and columns agree one by one. -/
theorem writes_partials (c : Counts) (h : 0 < c.nac) : c.writes = some c.partials := by
  have hd : Src.nacelle ∈ c.declared := by simp [Counts.declared, h]
  unfold Counts.writes Counts.partials
  simp only [hd, if_true, if_pos h]
  have hl : c.nac = (tiled c.engines 0).length := (tiled_length c.engines 0).symm
  rw [cols_eq, hl, range_map_getD _ (fun j x => (_ + j, Src.nacelle, x))]

theorem block_rows (ic n : ℕ) (s : Src) : (block ic n s).map (·.1) = List.range' ic n := by
  simp [block, List.range'_eq_map_range]

theorem block_src (ic n : ℕ) (s : Src) : (block ic n s).map (·.2) = List.replicate n (s, 0) := by
  simp [block, List.eq_replicate_iff]

/-- Every entry of the outputs is assigned exactly once, in order, and from the component that the FLOPS order
prescribes. -/
theorem writes_order (c : Counts) (h : 0 < c.nac) :
    ∃ w, c.writes = some w ∧ w.map (·.1) = List.range c.nc ∧ w.map (·.2) = order c := by
  refine ⟨_, writes_partials c h, ?_, ?_⟩
  · simp only [Counts.partials, block_eq, ite_add, if_pos h, List.map_cons, List.map_append, block_rows, nc_eq]
    have hl : (colsOf c.engines).length = c.nac := by rw [cols_eq, tiled_length]; rfl
    have : (((List.range c.nac).zip (colsOf c.engines)).map fun p => (1 + c.h + c.v + c.f + p.1, Src.nacelle, p.2)).map
        (·.1) = List.range' (1 + c.h + c.v + c.f) c.nac := by
      rw [List.map_map]
      have : ((fun x : ℕ × Src × ℕ => x.1) ∘ fun p : ℕ × ℕ => (1 + c.h + c.v + c.f + p.1, Src.nacelle, p.2)) =
          (fun j => 1 + c.h + c.v + c.f + j) ∘ Prod.fst := rfl
      rw [this, ← List.map_map, List.map_fst_zip (by simp [hl]), List.range'_eq_map_range]
    rw [this, List.range_eq_range']
    have e1 := List.range'_append_1 (s := 1) (m := c.h) (n := c.v)
    rw [e1, ]
    have e2 := List.range'_append_1 (s := 1) (m := c.h + c.v) (n := c.f)
    rw [show 1 + c.h + c.v = 1 + (c.h + c.v) by ring, e2]
    have e3 := List.range'_append_1 (s := 1) (m := c.h + c.v + c.f) (n := c.nac)
    rw [show 1 + (c.h + c.v) + c.f = 1 + (c.h + c.v + c.f) by ring, e3]
    rw [show 1 + (c.h + c.v + c.f) + c.nac = (c.h + c.v + c.f + c.nac) + 1 by ring, List.range'_succ]
  · simp only [Counts.partials, block_eq, ite_add, if_pos h, List.map_cons, List.map_append, block_src, order]
    have hl : (colsOf c.engines).length = c.nac := by rw [cols_eq, tiled_length]; rfl
    congr 2
    rw [List.map_map]
    have : ((fun x : ℕ × Src × ℕ => x.2) ∘ fun p : ℕ × ℕ => (1 + c.h + c.v + c.f + p.1, Src.nacelle, p.2)) =
        (fun i => (Src.nacelle, i)) ∘ Prod.snd := rfl
    rw [this, ← List.map_map, List.map_snd_zip (by simp [hl]), cols_eq]

/-- Every input that `compute` reads was added by `setup`. -/
theorem writes_declared (c : Counts) (w : List (ℕ × Src × ℕ)) (h : c.writes = some w) :
    ∀ x ∈ w, x.2.1 ∈ c.declared := by
  have hd : Src.nacelle ∈ c.declared := by
    by_contra hd
    unfold Counts.writes at h
    simp [hd] at h
  have hn : 0 < c.nac := by
    by_contra hn
    have h0 : ¬ c.nac > 0 := hn
    simp only [Counts.declared, if_neg h0] at hd
    revert hd; split_ifs <;> simp
  rw [writes_partials c hn] at h
  injection h with h
  subst h
  intro x hx
  simp only [Counts.partials, List.mem_cons, List.mem_append] at hx
  rcases hx with rfl | ((hx | hx) | hx) | hx
  · simp [Counts.declared]
  · split at hx
    · rename_i hh; simp only [block, List.mem_map] at hx; obtain ⟨j, _, rfl⟩ := hx; simp [Counts.declared, hh]
    · simp at hx
  · split at hx
    · rename_i hh; simp only [block, List.mem_map] at hx; obtain ⟨j, _, rfl⟩ := hx; simp [Counts.declared, hh]
    · simp at hx
  · split at hx
    · rename_i hh; simp only [block, List.mem_map] at hx; obtain ⟨j, _, rfl⟩ := hx; simp [Counts.declared, hh]
    · simp at hx
  · rw [if_pos hn] at hx
    simp only [List.mem_map] at hx; obtain ⟨j, _, rfl⟩ := hx; exact hd

/-- A glider: with no engine `setup` adds no nacelle input, but `compute` reads it: every run fails. -/
theorem no_engine_violated (c : Counts) (h : c.nac = 0) : c.writes = none := by
  have hd : Src.nacelle ∉ c.declared := by
    simp only [Counts.declared, h, gt_iff_lt, lt_irrefl, if_false]
    split_ifs <;> simp
  unfold Counts.writes
  simp [hd]

example : (⟨1, 1, 1, [2, 0, 1]⟩ : Counts).writes =
    some [(0, .wing, 0), (1, .htail, 0), (2, .vtail, 0), (3, .fuselage, 0), (4, .nacelle, 0), (5, .nacelle, 0),
      (6, .nacelle, 2)] := by decide +kernel

/-- The inputs added are exactly those of the parts that are there. -/
theorem declared_iff (c : Counts) (s : Src) :
    s ∈ c.declared ↔ match s with
      | .wing => True | .htail => c.h ≠ 0 | .vtail => c.v ≠ 0 | .fuselage => c.f ≠ 0 | .nacelle => c.engines.sum ≠ 0 := by
  simp only [← Nat.pos_iff_ne_zero]
  cases s <;> simp only [Counts.declared, Counts.nac] <;> split_ifs <;> simp_all

end Verif.NacIdx
