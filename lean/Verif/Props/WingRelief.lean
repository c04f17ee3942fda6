import Verif.Props.BwbWing

/-! # Bending material and engine relief of the wing, units of the blended wing body

Further theorems on `Verif.Model.WingBending` and `Verif.Model.BwbWing`. -/

namespace Verif.WingBend
open Verif.Flaps Set

/-! ## C103 -/

/-- The trapezoidal rule over points. -/
noncomputable def trapSum : List (ℝ × ℝ) → ℝ
  | p :: q :: r => (q.1 - p.1) * (p.2 + q.2) / 2 + trapSum (q :: r)
  | _ => 0

theorem trapSum_integral {q : ℝ × ℝ} {l : List (ℝ × ℝ)} (h : Inc (q :: l)) :
    trapSum (q :: l) = ∫ x in q.1..((q :: l).getLastD q).1, lin (q :: l) x := by
  induction l generalizing q with
  | nil => simp [trapSum]
  | cons r l ih =>
    have hi := ih h.2
    have h01 : q.1 < r.1 := h.1
    have el : (q :: r :: l).getLastD q = (r :: l).getLastD r := lastD_cons _ _ _ _ _
    have i := fun u v => (lin_cont h).intervalIntegrable (μ := MeasureTheory.volume) u v
    rw [trapSum, hi, el, ← intervalIntegral.integral_add_adjacent_intervals (i _ r.1) (i r.1 _)]
    have t1 : (∫ x in q.1..r.1, lin (q :: r :: l) x) = (r.1 - q.1) * (q.2 + r.2) / 2 := by
      rw [← Verif.BwbWing.trap_integral q r h01]
      refine intervalIntegral.integral_congr fun x hx => ?_
      rw [uIcc_of_le h01.le] at hx
      exact lin_head hx.2
    have t2 : (∫ x in r.1..((r :: l).getLastD r).1, lin (q :: r :: l) x)
        = ∫ x in r.1..((r :: l).getLastD r).1, lin (r :: l) x := by
      rcases l with _ | ⟨s, l⟩
      · simp
      · refine intervalIntegral.integral_congr fun x hx => ?_
        have hm : (r :: s :: l).getLastD r ∈ s :: l := lastD_cons r s l r r ▸ lastD_mem s l r
        have hlt := Verif.Flaps.Inc.lt h.2 _ hm
        rw [uIcc_of_le hlt.le] at hx
        exact lin_tail h hx.1
    rw [t1, t2]

theorem trapz_eq (l : List Node) (x : List ℝ) (hx : l.length = x.length + 1) :
    trapz l x = trapSum ((l.dropLast.map Node.y).zip x) := by
  unfold trapz
  induction x generalizing l with
  | nil =>
    match l, hx with
    | [a], _ => simp [pairs, trapSum]
  | cons u x ih =>
    match l, hx with
    | a :: b :: r, hx =>
      have hl : (b :: r).length = x.length + 1 := by simpa using hx
      have hi := ih (b :: r) hl
      match x, r, hl, hi with
      | [], [], _, _ => simp [pairs, trapSum]
      | v :: x, c :: r, hl, hi =>
        simp only [pairs, List.tail_cons, List.zipWith_cons_cons, List.dropLast_cons₂, List.map_cons, List.zip_cons_cons,
          trapSum, List.sum_cons] at hi ⊢
        rw [← hi]
        ring

/-- What is integrated for the bending material: the points of stations but the last. -/
def points (l : List Node) (x : List ℝ) : List (ℝ × ℝ) := (l.dropLast.map Node.y).zip x

/-- The material at each station but the last: moment and sweep over chord and thickness. -/
theorem material_get {l : List Node} {csw m : List ℝ} {i : ℕ} {a : Node} {s v : ℝ} (ha : l[i]? = some a)
    (hi : i + 1 < l.length) (hs : csw[i]? = some s) (hv : m[i]? = some v) :
    (material l csw m)[i]? = some (v * s / (a.c * a.t)) := by
  unfold material
  have hd : l.dropLast[i]? = some a := by
    rw [List.getElem?_dropLast, if_pos (by omega), ha]
  rw [List.getElem?_zipWith, List.getElem?_zipWith, List.getElem?_map, hs, hv, hd]
  rfl

/-- The factor without scaling is four times the integral of the bending material over the load. -/
theorem btb_integral {l : List Node} {csw : List ℝ} {q : ℝ × ℝ} {r : List (ℝ × ℝ)}
    (hn : l.length = (material l csw (totalMoment l csw)).length + 1)
    (hp : points l (material l csw (totalMoment l csw)) = q :: r) (hs : Inc (q :: r)) :
    btb l csw * el l = 4 * (∫ x in q.1..((q :: r).getLastD q).1, lin (q :: r) x) ∨ el l = 0 := by
  by_cases h : el l = 0
  · exact Or.inr h
  · left
    unfold btb
    rw [div_mul_cancel₀ _ h, trapz_eq _ _ hn, ← trapSum_integral hs, ← hp, points]

/-- The relief of an engine is eight times the integral of the material its arms save. -/
theorem bte_integral {l : List Node} {csw : List ℝ} {loc : ℝ} {q : ℝ × ℝ} {r : List (ℝ × ℝ)}
    (hn : l.length
      = (material l csw (suffix (List.zipWith (· * ·) (delme (l.map Node.y) loc) csw))).length + 1)
    (hp : points l (material l csw (suffix (List.zipWith (· * ·) (delme (l.map Node.y) loc) csw))) = q :: r)
    (hs : Inc (q :: r)) :
    bte l csw loc = 8 * (∫ x in q.1..((q :: r).getLastD q).1, lin (q :: r) x) := by
  unfold bte
  rw [trapz_eq _ _ hn, ← trapSum_integral hs, ← hp, points]

theorem zipWith_map_replicate (y : List ℝ) (k : ℝ) (n : ℕ) (h : y.length = n) :
    List.zipWith (· * ·) y (List.replicate n k) = y.map (· * k) := by
  induction y generalizing n with
  | nil => subst h; rfl
  | cons a y ih =>
    subst h
    simp only [List.length_cons, List.replicate_succ, List.zipWith_cons_cons, List.map_cons]
    rw [ih _ rfl]

theorem sums_map_mul (y : List ℝ) (k : ℝ) : sums (y.map (· * k)) = (sums y).map (· * k) := by
  induction y with
  | nil => rfl
  | cons a y ih =>
    simp only [List.map_cons, sums, ih]
    congr 1
    rw [List.sum_map_mul_right, List.map_id']
    ring

theorem delme_length (y : List ℝ) (loc : ℝ) : (delme y loc).length = y.length - 1 := by
  simp [delme, pairs]

/-- With one sweep of the load path the arms are those of the engine at each station, along the sweep. -/
theorem arms {k loc : ℝ} {a : ℝ} {y : List ℝ} (h : (a :: y).Pairwise (· < ·)) (h0 : a < loc)
    (h1 : loc < (a :: y).getLastD 0) :
    suffix (List.zipWith (· * ·) (delme (a :: y) loc) (List.replicate y.length k))
      = (a :: y).dropLast.map fun x => max 0 (loc - x) * k := by
  rw [zipWith_map_replicate _ _ _ (by rw [delme_length]; simp), suffix_eq, sums_map_mul, ← suffix_eq, delme_sums h h0 h1,
    List.map_map]
  rfl

/-- Between root and tip the relief is proportional to the mass of the pod over the gross mass and to the arms over
the bending factor. -/
theorem typeFactor_between {l : List Node} {csw : List ℝ} {bt gross loc pod : ℝ} (h0 : (l.map Node.y).headD 0 < loc)
    (h1 : loc < (l.map Node.y).getLastD 0) (hb : bt ≠ 0) (hg : gross ≠ 0) :
    (1 - typeFactor l csw bt gross loc pod) * (bt * gross) = bte l csw loc * pod := by
  unfold typeFactor
  rw [if_neg (not_le.2 h0), if_neg (not_le.2 h1)]
  field_simp
  ring

/-- Without a reference the interpolated thickness and chords stay as they are. -/
theorem no_reference {tc tcref ar arref x span : ℝ} (ht : tcref ≤ 0) (ha : arref ≤ 0) (hx : x ≤ 5) :
    x * tcScale tc tcref = x ∧ x * chordScale ar arref = x ∧ (arref = 0 → chordMod span ar arref x = x) := by
  refine ⟨?_, ?_, ?_⟩
  · rw [tcScale, if_neg (not_lt.2 ht), mul_one]
  · rw [chordScale, if_neg (not_lt.2 ha), mul_one]
  · rintro rfl
    rw [chordMod, if_neg (not_lt.2 hx), arScale, if_pos (by simp), mul_one]

example : trapz [⟨0, 1, 1, 1⟩, ⟨1, 1, 1, 1⟩, ⟨2, 1, 1, 1⟩] [3, 5] = 4 := by
  rw [trapz_eq _ _ rfl]
  norm_num [trapSum]

end Verif.WingBend

namespace Verif.BwbWing

/-- The same station or chord given as fraction of the semispan or in feet is the same in feet, as far as each notation
is recognized. -/
theorem feet_units {sp y : ℝ} (hs : 0 < sp) :
    (y ≤ 11 / 20 * sp → stationFt sp (y / (sp / 2)) = y) ∧ (11 / 10 < y → stationFt sp y = y) ∧
    (y ≤ 5 / 2 * sp → chordFt sp (y / (sp / 2)) = y) ∧ (5 < y → chordFt sp y = y) := by
  have e : y / (sp / 2) * sp / 2 = y := by field_simp
  refine ⟨fun h => ?_, fun h => ?_, fun h => ?_, fun h => ?_⟩
  · rw [stationFt, if_pos, e]
    rw [div_le_iff₀ (by linarith)]; linarith
  · rw [stationFt, if_neg (not_le.2 h)]
  · rw [chordFt, if_pos, e]
    rw [div_le_iff₀ (by linarith)]; linarith
  · rw [chordFt, if_neg (not_le.2 h)]

/-- With a root index below 1 the chords are body length, root chord and then those of the outboard wing: fractions of
the outboard semispan keep their length in feet, feet stay. -/
theorem updChord_get {b : Body} {root : ℤ} (hr : root < 1) (hs : 0 < span b)
    {chord : List ℝ} {i : ℕ} {x : ℝ} (hx : chord[i + 1]? = some x) :
    (updChord root b chord)[0]? = some b.length ∧ (updChord root b chord)[1]? = some b.rootChord ∧
    ∃ v, (updChord root b chord)[i + 2]? = some v ∧ (x < 5 → chordFt (span b) v = x * b.osspan ∨ v > 5) ∧
      (5 < x → chordFt (span b) v = x) := by
  unfold updChord
  rw [if_pos hr]
  refine ⟨rfl, rfl, if x < 5 then x * rate b else x, ?_, ?_, ?_⟩
  · simp [List.getElem?_tail, hx]
  · intro h
    rw [if_pos h]
    by_cases h5 : x * rate b ≤ 5
    · left
      rw [chordFt, if_pos h5, ← updChord_feet hs.ne' x]; ring
    · right; linarith
  · intro h
    rw [if_neg (by linarith), chordFt, if_neg (by linarith)]

/-- A fraction below 5 never turns into feet when the body has a width: the rate is below 1. -/
theorem rate_lt_one {b : Body} (ho : 0 < b.osspan) (hw : 0 < b.width) : 0 < rate b ∧ rate b < 1 := by
  have hs : 0 < span b := by unfold span; linarith
  constructor
  · apply div_pos _ hs
    unfold span; linarith
  · rw [rate, div_lt_one hs]; linarith

example : area 200 [(0, 100), (40, 60), (1, 1 / 10)] = 40 * 160 + 60 * 70 := by
  norm_num [area, loop, stationFt, chordFt]

end Verif.BwbWing
