import Verif.Model.BwbWing
import Verif.Props.WingBending
import Mathlib.Analysis.SpecialFunctions.Trigonometric.ArctanDeriv
import Verif.Lemmas.VecDeriv

/-! ## C104: wing distributions of the blended wing body -/

namespace Verif.BwbWing
open Verif.Flaps (lin line Inc line_cont lin_cont line_right lin_point)
open Verif.WingBend (lastD_cons lastD_mem lin_head lin_tail)
open Set

/-! ### BWBUpdateDetailedWingDist -/

/-- All three distributions get one more entry when the centre line is added. -/
theorem upd_length {b : Body} {chord tc sweep : List ℝ} (n : ℕ) (hc : chord.length = n + 1) (ht : tc.length = n + 1)
    (hs : sweep.length = n) (root : ℤ) :
    (updChord root b chord).length = n + (if root < 1 then 2 else 1) ∧
    (updTc root b tc).length = n + (if root < 1 then 2 else 1) ∧
    (updSweep root sweep).length = n + (if root < 1 then 1 else 0) := by
  unfold updChord updTc updSweep
  split_ifs <;> simp [hc, ht, hs]

/-- Chords given as fractions of the outboard semispan become fractions of the whole: the chord in feet is kept. -/
theorem updChord_feet {b : Body} (h : span b ≠ 0) (x : ℝ) : x * rate b * (span b / 2) = x * b.osspan := by
  unfold rate
  field_simp
  unfold span
  ring

theorem updSweep_entry {root : ℤ} {s : List ℝ} {j : ℕ} (hj : j < s.length) (i : ℕ) (t : ℝ) :
    HasDerivAt (fun t => (updSweep root (s.set j t)).getD i 0)
      (if i = j + (if root < 1 then 1 else 0) then 1 else 0) t := by
  unfold updSweep
  have key : ∀ k, HasDerivAt (fun t => (s.set j t).getD k 0) (if k = j then 1 else 0) t := by
    intro k
    simp only [List.getD_eq_getElem?_getD, List.getElem?_set]
    by_cases h : j = k
    · subst h
      simp only [if_true, hj]
      exact hasDerivAt_id t
    · simp only [if_neg h, if_neg (Ne.symm h)]
      exact hasDerivAt_const t _
  split_ifs with h0 h1 h1
  · subst h1
    have := key j
    rw [if_pos rfl] at this
    simpa using this
  · cases i with
    | zero => simpa using hasDerivAt_const t (0 : ℝ)
    | succ i =>
      have := key i
      rw [if_neg (by omega)] at this
      simpa using this
  · have := key i
    rwa [if_pos (by omega)] at this
  · have := key i
    rwa [if_neg (by omega)] at this

theorem updTc_entry {root : ℤ} {b : Body} {s : List ℝ} {j : ℕ} (hj : j < s.length) (i : ℕ) (t : ℝ) :
    HasDerivAt (fun t => (updTc root b (s.set j t)).getD i 0)
      (if (root < 1 ∧ j ≠ 0 ∧ i = j + 1) ∨ (1 ≤ root ∧ i = j) then 1 else 0) t := by
  unfold updTc
  have key : ∀ k, HasDerivAt (fun t => (s.set j t).getD k 0) (if k = j then 1 else 0) t := by
    intro k
    simp only [List.getD_eq_getElem?_getD, List.getElem?_set]
    by_cases h : j = k
    · subst h
      simp only [if_true, hj]
      exact hasDerivAt_id t
    · simp only [if_neg h, if_neg (Ne.symm h)]
      exact hasDerivAt_const t _
  by_cases hr : root < 1
  · simp only [if_pos hr]
    rcases i with _ | _ | i
    · rw [if_neg (by omega)]
      simpa using hasDerivAt_const t b.clTc
    · rw [if_neg (by omega)]
      simpa using hasDerivAt_const t b.sideTc
    · have e : ∀ t, (b.clTc :: b.sideTc :: (s.set j t).tail).getD (i + 1 + 1) 0 = (s.set j t).getD (i + 1) 0 := by
        intro t
        simp [List.getD_eq_getElem?_getD, List.getElem?_tail]
      simp only [e]
      have := key (i + 1)
      have c : ((root < 1 ∧ j ≠ 0 ∧ i + 1 + 1 = j + 1) ∨ (1 ≤ root ∧ i + 1 + 1 = j)) ↔ i + 1 = j := by omega
      simp only [c]
      exact this
  · simp only [if_neg hr]
    have c : ((root < 1 ∧ j ≠ 0 ∧ i = j + 1) ∨ (1 ≤ root ∧ i = j)) ↔ i = j := by omega
    simp only [c]
    exact key i

/-- The entries declared for the thickness are exactly the nonzero ones. -/
theorem tcRows_iff (root : ℤ) {n i j : ℕ} (hj : j < n) :
    (i, j) ∈ tcRows root n ↔ (root < 1 ∧ j ≠ 0 ∧ i = j + 1) ∨ (1 ≤ root ∧ i = j) := by
  unfold tcRows
  split_ifs with h
  · simp only [List.mem_map, List.mem_range, Prod.mk.injEq]
    constructor
    · rintro ⟨a, ha, rfl, rfl⟩
      exact .inl ⟨h, by omega, by omega⟩
    · rintro (⟨-, h1, h2⟩ | ⟨h1, -⟩)
      · exact ⟨j - 1, by omega, by omega, by omega⟩
      · omega
  · simp only [List.mem_map, List.mem_range, Prod.mk.injEq]
    constructor
    · rintro ⟨a, ha, rfl, rfl⟩
      exact .inr ⟨by omega, rfl⟩
    · rintro (⟨h1, -, -⟩ | ⟨-, h2⟩)
      · exact absurd h1 h
      · exact ⟨j, hj, h2.symm, rfl⟩

/-- So are those of the sweep, but for the first input when the centre line is added. -/
theorem sweepRows_partial (root : ℤ) {n i j : ℕ} (hj : j + 1 < n) (h0 : ¬ (root < 1 ∧ j = 0)) :
    (i, j) ∈ sweepRows root n ↔ i = j + (if root < 1 then 1 else 0) := by
  unfold sweepRows
  split_ifs with h
  · simp only [List.mem_map, List.mem_range, Prod.mk.injEq]
    constructor
    · rintro ⟨a, ha, rfl, rfl⟩
      omega
    · intro h2
      have : j ≠ 0 := fun e => h0 ⟨h, e⟩
      exact ⟨j - 1, by omega, by omega, by omega⟩
  · simp only [List.mem_map, List.mem_range, Prod.mk.injEq]
    constructor
    · rintro ⟨a, ha, rfl, rfl⟩
      omega
    · intro h2
      exact ⟨j, by omega, by omega, rfl⟩

/-- The sweep of the first section has an effect, but no entry is declared for it. -/
theorem sweepRows_violated {root : ℤ} (hr : root < 1) {s : List ℝ} (hs : s ≠ []) :
    (∀ i, (i, 0) ∉ sweepRows root (s.length + 1)) ∧
    ∀ t, HasDerivAt (fun t => (updSweep root (s.set 0 t)).getD 1 0) 1 t := by
  constructor
  · intro i
    unfold sweepRows
    rw [if_pos hr]
    simp
  · intro t
    have := updSweep_entry (root := root) (s := s) (List.length_pos_iff.2 hs) 1 t
    rwa [if_pos (by simp [hr])] at this

example : sweepRows 0 4 = [(2, 1), (3, 2)] := by decide

/-! ### BWBComputeDetailedWingDist -/

/-- Only two stations are accepted. -/
theorem computeDist_some_iff (n : ℕ) (w os len rc sideTc tc sw : ℝ) :
    (computeDist n w os len rc sideTc tc sw).isSome ↔ n = 2 := by
  unfold computeDist
  split_ifs with h
  · simpa using h
  · simpa using h

theorem swpLd_deriv {w os rc sw : ℝ → ℝ} {t a' : ℝ}
    (h : HasDerivAt (fun t => angle (w t) (os t) (rc t) (sw t)) a' t) :
    HasDerivAt (fun t => swpLd (w t) (os t) (rc t) (sw t))
      (572958 / 10000 / (1 + angle (w t) (os t) (rc t) (sw t) ^ 2) * a') t := by
  have := (h.arctan).const_mul (572958 / 10000)
  refine hd_congr this (fun t => rfl) ?_
  ring

/-- The entry by the sweep. -/
theorem dSweep_deriv (w os rc sw : ℝ) (h : Real.cos (sw / (572958 / 10000)) ≠ 0) :
    HasDerivAt (fun t => swpLd w os rc t) (dSweep w os rc sw) sw := by
  have h1 : HasDerivAt (fun t : ℝ => t / (572958 / 10000)) (1 / (572958 / 10000)) sw :=
    (hasDerivAt_id sw).div_const _
  have h2 := ((Real.hasDerivAt_tan h).comp sw h1).sub_const
    (2 * (1 - trOut w os rc) / (1 + trOut w os rc) / arOut w os rc)
  have := swpLd_deriv (w := fun _ => w) (os := fun _ => os) (rc := fun _ => rc) (sw := fun t => t) h2
  refine hd_congr this (fun t => rfl) ?_
  unfold dSweep
  ring

theorem angle_chain {w os rc : ℝ → ℝ} {sw t dtr dar : ℝ} (htr : HasDerivAt (fun t => trOut (w t) (os t) (rc t)) dtr t)
    (har : HasDerivAt (fun t => arOut (w t) (os t) (rc t)) dar t) (h1 : 1 + trOut (w t) (os t) (rc t) ≠ 0)
    (h2 : arOut (w t) (os t) (rc t) ≠ 0) :
    HasDerivAt (fun t => swpLd (w t) (os t) (rc t) sw) (chain (w t) (os t) (rc t) sw dtr dar) t := by
  have k := ((((htr.const_sub 1).const_mul 2).div (htr.const_add 1) h1).div har h2).const_sub
    (Real.tan (sw / (572958 / 10000)))
  have := swpLd_deriv (sw := fun _ => sw) k
  refine hd_congr this (fun t => rfl) ?_
  unfold chain
  simp only [Pi.div_apply]
  generalize angle (w t) (os t) (rc t) sw = g
  generalize trOut (w t) (os t) (rc t) = u at *
  generalize arOut (w t) (os t) (rc t) = v at *
  congr 1
  field_simp
  ring

/-- The entry by the outboard semispan. -/
theorem dOs_deriv {w os rc sw : ℝ} (hw : 0 < w) (ho : 0 < os) (hr : 0 < rc) :
    HasDerivAt (fun t => swpLd w t rc sw) (dOs w os rc sw) os := by
  have tp : HasDerivAt (fun t => tip w t) (12 / 100) os := by
    have := (((hasDerivAt_id os).mul_const 2).const_add w).const_mul (6 / 100 : ℝ)
    refine hd_congr this (fun t => rfl) ?_
    norm_num
  have tpos : 0 < tip w os := by unfold tip; positivity
  have h1 := tp.div_const rc
  have h2 := (((hasDerivAt_id os).const_mul 2).const_mul 2).div (tp.add_const rc) (by positivity)
  have := angle_chain (w := fun _ => w) (os := fun t => t) (rc := fun _ => rc) (sw := sw) h1 h2
    (by unfold trOut; positivity) (by unfold arOut; positivity)
  refine hd_congr this (fun t => rfl) ?_
  unfold dOs chain
  simp only [id]
  field_simp
  ring

/-- The entry by the root chord. -/
theorem dRc_deriv {w os rc sw : ℝ} (hw : 0 < w) (ho : 0 < os) (hr : 0 < rc) :
    HasDerivAt (fun t => swpLd w os t sw) (dRc w os rc sw) rc := by
  have tpos : 0 < tip w os := by unfold tip; positivity
  have h1 := (hasDerivAt_const rc (tip w os)).div (hasDerivAt_id rc) hr.ne'
  have h2 := (hasDerivAt_const rc (2 * (2 * os))).div ((hasDerivAt_id rc).const_add (tip w os)) (by simp; positivity)
  have := angle_chain (w := fun _ => w) (os := fun _ => os) (rc := fun t => t) (sw := sw) h1 h2
    (by unfold trOut; positivity) (by unfold arOut; positivity)
  refine hd_congr this (fun t => rfl) ?_
  unfold dRc chain
  simp only [id]
  field_simp
  ring

/-- The entry by the width of the body. -/
theorem dW_deriv {w os rc sw : ℝ} (hw : 0 < w) (ho : 0 < os) (hr : 0 < rc) :
    HasDerivAt (fun t => swpLd t os rc sw) (dW w os rc sw) w := by
  have tp : HasDerivAt (fun t => tip t os) (6 / 100) w := by
    have := ((hasDerivAt_id w).add_const (os * 2)).const_mul (6 / 100 : ℝ)
    refine hd_congr this (fun t => rfl) ?_
    norm_num
  have tpos : 0 < tip w os := by unfold tip; positivity
  have h1 := tp.div_const rc
  have h2 := (hasDerivAt_const w (2 * (2 * os))).div (tp.add_const rc) (by positivity)
  have u0 : 0 < 1 + trOut w os rc := by unfold trOut; positivity
  have v0 : 0 < arOut w os rc := by unfold arOut; positivity
  have := angle_chain (w := fun t => t) (os := fun _ => os) (rc := fun _ => rc) (sw := sw) h1 h2 u0.ne' v0.ne'
  refine hd_congr this (fun t => rfl) ?_
  have et : 6 / 100 * (w + 2 * os) + rc = tip w os + rc := by unfold tip; ring
  have e2 : (0 * (tip w os + rc) - 2 * (2 * os) * (6 / 100)) / (tip w os + rc) ^ 2
      = -4 * (6 / 100) * os / (tip w os + rc) ^ 2 := by ring
  unfold dW chain
  simp only [et]
  rw [e2]
  generalize -4 * (6 / 100) * os / (tip w os + rc) ^ 2 = dar
  generalize angle w os rc sw = g
  generalize trOut w os rc = u at *
  generalize arOut w os rc = v at *
  have h3 : (1 + g ^ 2) ≠ 0 := by positivity
  field_simp
  ring

example : HasDerivAt (fun t => swpLd t 86 70 35) (dW 64 86 70 35) 64 := dW_deriv (by norm_num) (by norm_num) (by norm_num)

/-! ### BWBWingPrelim -/

/-- Stations in feet with chords in feet. -/
noncomputable def feet (sp : ℝ) (l : List (ℝ × ℝ)) : List (ℝ × ℝ) := l.map fun q => (stationFt sp q.1, chordFt sp q.2)

theorem trap_integral (p q : ℝ × ℝ) (h : p.1 < q.1) :
    (∫ x in p.1..q.1, line p q x) = (q.1 - p.1) * (p.2 + q.2) / 2 := by
  have hd : q.1 - p.1 ≠ 0 := (sub_pos.2 h).ne'
  have hF : ∀ x ∈ uIcc p.1 q.1, HasDerivAt (fun x => p.2 * (x - p.1) + (q.2 - p.2) / (q.1 - p.1) * (x - p.1) ^ 2 / 2)
      (line p q x) x := by
    intro x _
    have u : HasDerivAt (fun x : ℝ => x - p.1) 1 x := (hasDerivAt_id x).sub_const _
    have := (u.const_mul p.2).add (((u.pow 2).const_mul ((q.2 - p.2) / (q.1 - p.1))).div_const 2)
    refine this.congr_deriv ?_
    unfold line
    push_cast
    ring
  rw [intervalIntegral.integral_eq_sub_of_hasDerivAt hF ((line_cont _ _).intervalIntegrable _ _)]
  field_simp
  ring

theorem loop_shift (sp : ℝ) (l : List (ℝ × ℝ)) (y c s : ℝ) : loop sp l y c s = s + loop sp l y c 0 := by
  induction l generalizing y c s with
  | nil => simp [loop]
  | cons q l ih =>
    obtain ⟨y', c'⟩ := q
    rw [loop, loop, ih, ih (s := 0 + _)]
    ring

/-- The area is twice the integral of the chord from the centre line to the tip: both wings. -/
theorem area_integral {sp : ℝ} {q : ℝ × ℝ} {l : List (ℝ × ℝ)} (h : Inc (feet sp (q :: l))) :
    area sp (q :: l)
      = 2 * ∫ x in (stationFt sp q.1)..(stationFt sp ((q :: l).getLastD q).1), lin (feet sp (q :: l)) x := by
  induction l generalizing q with
  | nil => simp [area, loop]
  | cons r l ih =>
    obtain ⟨y0, c0⟩ := q
    obtain ⟨y1, c1⟩ := r
    have hi := ih h.2
    have h01 : stationFt sp y0 < stationFt sp y1 := h.1
    have e : area sp ((y0, c0) :: (y1, c1) :: l)
        = (stationFt sp y1 - stationFt sp y0) * (chordFt sp c0 + chordFt sp c1) + area sp ((y1, c1) :: l) := by
      rw [area, loop, loop_shift, area]
      ring
    have el : ((y0, c0) :: (y1, c1) :: l).getLastD (y0, c0) = ((y1, c1) :: l).getLastD (y1, c1) := lastD_cons _ _ _ _ _
    have i := fun u v => (lin_cont h).intervalIntegrable (μ := MeasureTheory.volume) u v
    rw [e, hi, el, ← intervalIntegral.integral_add_adjacent_intervals (i _ (stationFt sp y1)) (i (stationFt sp y1) _)]
    have t1 : (∫ x in (stationFt sp y0)..(stationFt sp y1), lin (feet sp ((y0, c0) :: (y1, c1) :: l)) x)
        = (stationFt sp y1 - stationFt sp y0) * (chordFt sp c0 + chordFt sp c1) / 2 := by
      rw [← trap_integral (stationFt sp y0, chordFt sp c0) (stationFt sp y1, chordFt sp c1) h01]
      refine intervalIntegral.integral_congr fun x hx => ?_
      rw [uIcc_of_le h01.le] at hx
      exact lin_head hx.2
    have t2 : (∫ x in (stationFt sp y1)..(stationFt sp (((y1, c1) :: l).getLastD (y1, c1)).1),
          lin (feet sp ((y0, c0) :: (y1, c1) :: l)) x)
        = ∫ x in (stationFt sp y1)..(stationFt sp (((y1, c1) :: l).getLastD (y1, c1)).1), lin (feet sp ((y1, c1) :: l)) x := by
      rcases l with _ | ⟨r, l⟩
      · simp
      · refine intervalIntegral.integral_congr fun x hx => ?_
        have hm : ((y1, c1) :: r :: l).getLastD (y1, c1) ∈ r :: l := lastD_cons (y1, c1) r l (y1, c1) (y1, c1) ▸ lastD_mem r l (y1, c1)
        have hlt := Verif.Flaps.Inc.lt h.2 _ (List.mem_map_of_mem (f := fun q : ℝ × ℝ => (stationFt sp q.1, chordFt sp q.2)) hm)
        rw [uIcc_of_le (by exact hlt.le)] at hx
        exact lin_tail h hx.1
    rw [t1, t2]
    ring

/-- Fractions of the outboard wing become fractions of the semispan: nought is the side of the body, one the tip. -/
theorem prelimStation_ends {w sp : ℝ} (h : sp ≠ 0) :
    (0 : ℝ) * ((sp - w) / sp) + w / sp = w / sp ∧ (1 : ℝ) * ((sp - w) / sp) + w / sp = 1 := by
  constructor
  · ring
  · field_simp
    ring

/-- With the tip as last station and a body wider than 2.2 feet the stations run from the centre line over the side of
the body to the tip. -/
theorem prelim_feet {w sp : ℝ} (hw : 22 / 10 < w) (hsp : 0 < sp) (m : List ℝ) :
    ∃ l, (prelimStations 0 w sp (0 :: m ++ [1])).map (stationFt sp) = 0 :: w / 2 :: l ++ [sp / 2] := by
  refine ⟨(m.map fun x => if x ≤ 1 then x * ((sp - w) / sp) + w / sp else x + w / 2).map (stationFt sp), ?_⟩
  unfold prelimStations
  rw [if_pos (by norm_num)]
  have e1 : stationFt sp 0 = 0 := by unfold stationFt; rw [if_pos (by norm_num)]; simp
  have e2 : stationFt sp (w / 2) = w / 2 := by unfold stationFt; rw [if_neg (by linarith)]
  have e3 : stationFt sp 1 = sp / 2 := by unfold stationFt; rw [if_pos (by norm_num)]; simp
  have e4 := (prelimStation_ends (w := w) hsp.ne').2
  simp [e1, e2]
  rw [one_mul] at e4
  rw [e4, e3]

/-- The share of the outboard wing in the load. -/
theorem pctLoad_mem {w sp : ℝ} (h0 : 0 ≤ w) (h1 : w ≤ sp) (h : 0 < sp) : pctLoad w sp ∈ Icc 0 1 := by
  have a : 0 ≤ w / sp := by positivity
  have b : w / sp ≤ 1 := by rwa [div_le_one h]
  unfold pctLoad
  constructor
  · positivity
  · nlinarith

/-- The aspect ratio belongs to the area without glove and bat. -/
theorem aspect_area {sp glove : ℝ} {l : List (ℝ × ℝ)} (h : area sp l ≠ glove) :
    aspect sp glove l * (area sp l - glove) = sp ^ 2 := by
  unfold aspect
  have := sub_ne_zero.2 h
  field_simp

end Verif.BwbWing
