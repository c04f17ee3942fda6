import Verif.Model.FortranOptions
import Verif.Lemmas.Dict
import Mathlib.Tactic.Linarith
import Mathlib.Tactic.NormNum
import Mathlib.Tactic.SplitIfs
import Mathlib.Tactic.FieldSimp
import Mathlib.Data.Rat.Floor
import Mathlib.Algebra.Order.Round
import Mathlib.Data.List.Infix
import Mathlib.Data.List.Nodup

/-!
# C72 - C74: value dependent special cases of the conversion from legacy decks
-/

namespace Verif.Fortran
open Verif.Dict

/-! ## C72: scalers that stand for masses or areas -/

/-- What a scaler of the deck means: none, a factor, or a fixed value. -/
theorem updateScaler_spec (limit : ℚ) (hl : 0 < limit) (d : NumDict) (hd : d.keys.Nodup) (name : Txt) (x : ℚ) (u : String)
    (h : d.get? (scalerName name) = some (x, u)) :
    (x ≤ 0 → (updateScaler limit d name).get? (scalerName name) = none ∧
      (updateScaler limit d name).get? name = d.get? name) ∧
    (0 < x → x ≤ limit → updateScaler limit d name = d) ∧
    (limit < x → (updateScaler limit d name).get? (scalerName name) = none ∧
      (updateScaler limit d name).get? name = some (x, if isArea name then "ft**2" else "lbm")) := by
  have hne : scalerName name ≠ name := by
    intro e
    have := congrArg List.length e
    simp [scalerName] at this
  refine ⟨fun hx => ?_, fun h0 h1 => ?_, fun hx => ?_⟩
  · simp [updateScaler, h, hx, get?_erase, hd, hne]
  · have n0 : ¬ x ≤ 0 := not_le.2 h0
    have n1 : ¬ x > limit := not_lt.2 h1
    simp [updateScaler, h, n0, n1]
  · have n0 : ¬ x ≤ 0 := not_le.2 (lt_trans hl hx)
    have n1 : ¬ x < limit := not_lt.2 hx.le
    have hn := nodup_set d name (x, if isArea name then "ft**2" else "lbm") hd
    simp [updateScaler, h, n0, n1, hx, get?_erase _ hn, hne]

theorem updateScaler_nodup (limit : ℚ) (d : NumDict) (hd : d.keys.Nodup) (name : Txt) :
    (updateScaler limit d name).keys.Nodup := by
  unfold updateScaler
  split
  · exact hd
  · split_ifs
    all_goals first | exact hd | exact nodup_erase _ _ hd | exact nodup_erase _ _ (nodup_set _ _ _ hd)

/-- Other variables are not touched. -/
theorem updateScaler_frame (limit : ℚ) (d : NumDict) (hd : d.keys.Nodup) (name k : Txt) (h1 : k ≠ name)
    (h2 : k ≠ scalerName name) : (updateScaler limit d name).get? k = d.get? k := by
  have h2' : scalerName name ≠ k := fun e => h2 e.symm
  unfold updateScaler
  split
  · rfl
  · split_ifs
    all_goals first
      | rfl
      | rw [get?_erase _ hd, if_neg h2']
      | rw [get?_erase _ (nodup_set _ _ _ hd), if_neg h2', get?_set_ne _ _ (Ne.symm h1)]

/-- The names do not interfere: they are different, and none is the scaler of another. -/
def Separate (names : List Txt) : Prop := names.Nodup ∧ ∀ a ∈ names, ∀ b ∈ names, a ≠ scalerName b

theorem toList_inj : Function.Injective String.toList := fun _ _ h => String.toList_injective h

theorem flops_last : ∀ a ∈ flopsScalerVariables, a.getLast? ≠ some 'r' := by decide +kernel

theorem scalerName_last (b : Txt) : (scalerName b).getLast? = some 'r' := by
  rw [scalerName, List.getLast?_append]
  rfl

theorem flops_separate : Separate flopsScalerVariables := by
  constructor
  · unfold flopsScalerVariables
    refine List.Nodup.map toList_inj ?_
    decide +kernel
  · intro a ha b _ e
    exact flops_last a ha (e ▸ scalerName_last b)

theorem scalerName_inj {a b : Txt} (h : scalerName a = scalerName b) : a = b := List.append_cancel_right h

theorem updateScalers_frame (limit : ℚ) (names : List Txt) : ∀ (d : NumDict), d.keys.Nodup → ∀ k,
    (∀ n ∈ names, k ≠ n ∧ k ≠ scalerName n) → (updateScalers limit names d).get? k = d.get? k := by
  induction names with
  | nil => intro d _ k _; rfl
  | cons n names ih =>
    intro d hd k h
    rw [updateScalers, List.foldl_cons]
    have := ih (updateScaler limit d n) (updateScaler_nodup _ _ hd _) k (fun x hx => h x (List.mem_cons_of_mem _ hx))
    rw [updateScalers] at this
    rw [this, updateScaler_frame _ _ hd _ _ (h n (by simp)).1 (h n (by simp)).2]

/-- One update depends only on the scaler and the variable themselves. -/
theorem updateScaler_local (limit : ℚ) (d e : NumDict) (hd : d.keys.Nodup) (he : e.keys.Nodup) (name : Txt)
    (h1 : d.get? name = e.get? name) (h2 : d.get? (scalerName name) = e.get? (scalerName name)) :
    (updateScaler limit d name).get? name = (updateScaler limit e name).get? name ∧
    (updateScaler limit d name).get? (scalerName name) = (updateScaler limit e name).get? (scalerName name) := by
  have hne : scalerName name ≠ name := by
    intro e
    have := congrArg List.length e
    simp [scalerName] at this
  unfold updateScaler
  rw [← h2]
  cases hs : d.get? (scalerName name) with
  | none => exact ⟨h1, by rw [← h2]; ⟩
  | some p =>
    obtain ⟨x, u⟩ := p
    dsimp only
    split_ifs
    all_goals first
      | exact ⟨h1, h2⟩
      | simp [get?_erase, hd, he, hne, h1]
      | simp [get?_erase, nodup_set, hd, he, hne]

/-- The whole loop: each variable of the list is treated as if it were alone. -/
theorem updateScalers_each (limit : ℚ) (names : List Txt) (hs : Separate names) : ∀ (d : NumDict), d.keys.Nodup →
    ∀ n ∈ names, (updateScalers limit names d).get? n = (updateScaler limit d n).get? n ∧
      (updateScalers limit names d).get? (scalerName n) = (updateScaler limit d n).get? (scalerName n) := by
  induction names with
  | nil => intro d _ n h; simp at h
  | cons m names ih =>
    intro d hd n hn
    have hs' : Separate names :=
      ⟨(List.nodup_cons.1 hs.1).2, fun a ha b hb => hs.2 a (List.mem_cons_of_mem _ ha) b (List.mem_cons_of_mem _ hb)⟩
    have hm := (List.nodup_cons.1 hs.1).1
    have hd' := updateScaler_nodup limit d hd m
    rw [updateScalers, List.foldl_cons]
    change (updateScalers limit names (updateScaler limit d m)).get? n = _ ∧
      (updateScalers limit names (updateScaler limit d m)).get? (scalerName n) = _
    rcases List.mem_cons.1 hn with rfl | hn'
    · constructor
      · apply updateScalers_frame _ _ _ hd'
        intro x hx
        exact ⟨by rintro rfl; exact hm hx, hs.2 _ (by simp) _ (List.mem_cons_of_mem _ hx)⟩
      · apply updateScalers_frame _ _ _ hd'
        intro x hx
        refine ⟨fun e => hs.2 x (List.mem_cons_of_mem _ hx) n (by simp) e.symm, fun e => hm ?_⟩
        rw [scalerName_inj e]; exact hx
    · have hne : n ≠ m := by rintro rfl; exact hm hn'
      obtain ⟨a1, a2⟩ := ih hs' _ hd' n hn'
      have b := updateScaler_local limit (updateScaler limit d m) d hd' hd n
        (updateScaler_frame _ _ hd _ _ hne (hs.2 n hn m (by simp)))
        (updateScaler_frame _ _ hd _ _ (fun e => hs.2 m (by simp) n hn e.symm) (fun e => hne (scalerName_inj e)))
      exact ⟨a1.trans b.1, a2.trans b.2⟩

/-- Every scaler of a list: removed when not positive, a factor up to the limit, a fixed mass or area beyond. -/
theorem updateScalers_spec (limit : ℚ) (hl : 0 < limit) (names : List Txt) (hs : Separate names) (d : NumDict)
    (hd : d.keys.Nodup) (n : Txt) (hn : n ∈ names) (x : ℚ) (u : String) (h : d.get? (scalerName n) = some (x, u)) :
    (x ≤ 0 → (updateScalers limit names d).get? (scalerName n) = none ∧
      (updateScalers limit names d).get? n = d.get? n) ∧
    (0 < x → x ≤ limit → (updateScalers limit names d).get? (scalerName n) = some (x, u) ∧
      (updateScalers limit names d).get? n = d.get? n) ∧
    (limit < x → (updateScalers limit names d).get? (scalerName n) = none ∧
      (updateScalers limit names d).get? n = some (x, if isArea n then "ft**2" else "lbm")) := by
  obtain ⟨h1, h2⟩ := updateScalers_each limit names hs d hd n hn
  obtain ⟨s1, s2, s3⟩ := updateScaler_spec limit hl d hd n x u h
  rw [h1, h2]
  exact ⟨s1, fun a b => by rw [s2 a b]; exact ⟨h, rfl⟩, s3⟩

/-- Every FLOPS scaler: removed when not positive, a factor up to five, a fixed mass or area beyond. -/
theorem flops_scalers (d : NumDict) (hd : d.keys.Nodup) (n : Txt) (hn : n ∈ flopsScalerVariables) (x : ℚ) (u : String)
    (h : d.get? (scalerName n) = some (x, u)) :
    (x ≤ 0 → (updateScalers 5 flopsScalerVariables d).get? (scalerName n) = none ∧
      (updateScalers 5 flopsScalerVariables d).get? n = d.get? n) ∧
    (0 < x → x ≤ 5 → (updateScalers 5 flopsScalerVariables d).get? (scalerName n) = some (x, u) ∧
      (updateScalers 5 flopsScalerVariables d).get? n = d.get? n) ∧
    (5 < x → (updateScalers 5 flopsScalerVariables d).get? (scalerName n) = none ∧
      (updateScalers 5 flopsScalerVariables d).get? n = some (x, if isArea n then "ft**2" else "lbm")) :=
  updateScalers_spec 5 (by norm_num) _ flops_separate d hd n hn x u h

example : isArea "aircraft:canard:wetted_area".toList = true ∧ isArea "aircraft:wing:mass".toList = false := by
  decide +kernel

/-- A scaler of zero means "no weight for that component", but the conversion drops the scaler and sets no mass, which
leaves the default scaler and the full computed weight. -/
theorem zero_scaler_violated (d : NumDict) (hd : d.keys.Nodup) (n : Txt) (hn : n ∈ flopsScalerVariables) (u : String)
    (h : d.get? (scalerName n) = some (0, u)) (hno : d.get? n = none) :
    (updateScalers 5 flopsScalerVariables d).get? (scalerName n) = none ∧
    (updateScalers 5 flopsScalerVariables d).get? n = none := by
  obtain ⟨h1, h2⟩ := (flops_scalers d hd n hn 0 u h).1 le_rfl
  exact ⟨h1, h2.trans hno⟩

theorem oil_eq : oilScaler = scalerName "aircraft:propulsion:engine_oil_mass".toList := by decide +kernel

/-- The engine oil scaler is not the scaler of any listed variable, so a fixed oil mass is kept as a factor. -/
theorem oil_scaler_violated (d : NumDict) (hd : d.keys.Nodup) :
    (updateScalers 5 flopsScalerVariables d).get? oilScaler = d.get? oilScaler := by
  apply updateScalers_frame _ _ _ hd
  intro n hn
  rw [oil_eq]
  generalize hq : "aircraft:propulsion:engine_oil_mass".toList = q
  refine ⟨fun e => flops_last n hn (by rw [← e]; exact scalerName_last q), fun e => ?_⟩
  rw [← scalerName_inj e, ← hq] at hn
  unfold flopsScalerVariables at hn
  obtain ⟨m, hm, e⟩ := List.mem_map.1 hn
  rw [toList_inj e] at hm
  revert hm
  decide +kernel

/-- The GASP rule is the same with the limit ten. -/
theorem gasp_scaler (d : NumDict) (hd : d.keys.Nodup) (n : Txt) (x : ℚ) (u : String)
    (h : d.get? (scalerName n) = some (x, u)) :
    (x ≤ 0 → (updateScaler 10 d n).get? (scalerName n) = none) ∧ (0 < x → x ≤ 10 → updateScaler 10 d n = d) ∧
    (10 < x → (updateScaler 10 d n).get? n = some (x, if isArea n then "ft**2" else "lbm")) := by
  obtain ⟨s1, s2, s3⟩ := updateScaler_spec 10 (by norm_num) d hd n x u h
  exact ⟨fun a => (s1 a).1, s2, fun a => (s3 a).2⟩

/-- Running the loop twice changes nothing more. -/
theorem updateScalers_idem (limit : ℚ) (hl : 0 < limit) (names : List Txt) (hs : Separate names) (d : NumDict)
    (hd : d.keys.Nodup) : ∀ k, (updateScalers limit names (updateScalers limit names d)).get? k =
      (updateScalers limit names d).get? k := by
  have hnd : ∀ (names : List Txt) (d : NumDict), d.keys.Nodup → (updateScalers limit names d).keys.Nodup := by
    intro names
    induction names with
    | nil => intro d h; exact h
    | cons n names ih => intro d h; exact ih _ (updateScaler_nodup _ _ h _)
  intro k
  have hone : ∀ n, (updateScaler limit (updateScaler limit d n) n).get? n = (updateScaler limit d n).get? n ∧
      (updateScaler limit (updateScaler limit d n) n).get? (scalerName n) = (updateScaler limit d n).get? (scalerName n) := by
    intro n
    have hnone : ∀ e : NumDict, e.get? (scalerName n) = none → updateScaler limit e n = e := by
      intro e he; simp [updateScaler, he]
    cases hx : d.get? (scalerName n) with
    | none => rw [hnone d hx, hnone d hx]; exact ⟨rfl, rfl⟩
    | some p =>
      obtain ⟨x, u⟩ := p
      obtain ⟨s1, s2, s3⟩ := updateScaler_spec limit hl d hd n x u hx
      rcases le_or_gt x 0 with h0 | h0
      · rw [hnone _ (s1 h0).1]; exact ⟨rfl, rfl⟩
      · rcases le_or_gt x limit with h1 | h1
        · rw [s2 h0 h1, s2 h0 h1]; exact ⟨rfl, rfl⟩
        · rw [hnone _ (s3 h1).1]; exact ⟨rfl, rfl⟩
  by_cases hk : ∃ n ∈ names, k = n ∨ k = scalerName n
  · obtain ⟨n, hn, hk⟩ := hk
    have a := updateScalers_each limit names hs d hd n hn
    have b := updateScalers_each limit names hs _ (hnd names d hd) n hn
    have c := updateScaler_local limit (updateScalers limit names d) (updateScaler limit d n) (hnd names d hd)
      (updateScaler_nodup _ _ hd _) n a.1 a.2
    rcases hk with rfl | rfl
    · rw [b.1, c.1, (hone k).1, a.1]
    · rw [b.2, c.2, (hone n).2, a.2]
  · push Not at hk
    rw [updateScalers_frame _ _ _ (hnd names d hd) k hk]

/-! ## C73: GASP special cases -/

/-- For the problem types the converter knows, the design range is the entry that belongs to the problem type; a range of
zero asks for the maximum range. -/
theorem designRange_spec (r0 : ℚ) (rest : List ℚ) (pt : Option String) :
    (r0 = 0 → designRange (r0 :: rest) pt = .ok (.num 0, some "off_design_max_range")) ∧
    (r0 ≠ 0 → pt.getD "sizing" = "sizing" → designRange (r0 :: rest) pt = .ok (.num r0, pt)) ∧
    (r0 ≠ 0 → pt = some "off_design_max_range" → designRange (r0 :: rest) pt = .ok (.num 0, pt)) := by
  refine ⟨fun h => by simp [designRange, h], fun h hp => by simp [designRange, h, hp], fun h hp => ?_⟩
  subst hp
  simp [designRange, h]

/-- For the other problem types of Aviary the range ends up as a list inside a list. -/
theorem designRange_violated (r0 : ℚ) (rest : List ℚ) (h : r0 ≠ 0) :
    designRange (r0 :: rest) (some "off_design_min_fuel") = .ok (.nested (r0 :: rest), some "off_design_min_fuel") := by
  simp [designRange, h]

theorem trunc_nonneg {q : ℚ} (h : 0 ≤ q) : 0 ≤ truncToInt q ∧ (truncToInt q : ℚ) ≤ q ∧ q < truncToInt q + 1 := by
  simp only [truncToInt, h, if_true]
  exact ⟨Int.floor_nonneg.2 h, Int.floor_le q, Int.lt_floor_add_one q⟩

theorem trunc_le_int {q : ℚ} {n : Int} (h0 : 0 ≤ q) (h : q ≤ n) : truncToInt q ≤ n := by
  have := (trunc_nonneg h0).2.1
  exact_mod_cast this.trans h

/-- First and economy class add up to the passengers and neither is negative. -/
theorem gaspPassengers_sum (p f : ℚ) (hp : 0 ≤ p) (h0 : 0 ≤ f) (h1 : f ≤ 1) :
    ∃ n a b : Int, gaspPassengers (some p) (some f) = .ok ⟨some n, some a, some b⟩ ∧ a + b = n ∧ 0 ≤ a ∧ 0 ≤ b ∧
      n ≤ p ∧ p < n + 1 ∧ a ≤ f * n ∧ f * n < a + 1 := by
  have hn := trunc_nonneg hp
  have hn0 : (0 : ℚ) ≤ truncToInt p := by exact_mod_cast hn.1
  have hfn : 0 ≤ f * truncToInt p := mul_nonneg h0 hn0
  have ha := trunc_nonneg hfn
  have hle : truncToInt (f * truncToInt p) ≤ truncToInt p :=
    trunc_le_int hfn (mul_le_of_le_one_left hn0 h1)
  exact ⟨_, _, _, rfl, by ring, ha.1, by linarith, hn.2.1, hn.2.2, ha.2.1, ha.2.2⟩

example : gaspPassengers (some 180) (some (1 / 10)) = .ok ⟨some 180, some 18, some 162⟩ := by
  have h1 : truncToInt 180 = 180 := by rw [truncToInt, if_pos (by norm_num)]; norm_num
  have h2 : truncToInt (1 / 10 * ((180 : Int) : ℚ)) = 18 := by rw [truncToInt, if_pos (by norm_num)]; norm_num
  simp only [gaspPassengers, h1, h2]; norm_num

/-- A first class fraction without a passenger count uses an unbound variable. -/
theorem gaspPassengers_violated (f : ℚ) : gaspPassengers none (some f) = .error .unboundLocal := rfl

/-- Seat numbers are never zero and whole numbers other than zero are kept. -/
theorem seatsAbreast_spec (dflt : Int) (hd : dflt ≠ 0) (x : ℚ) (n : Int) :
    seatsAbreast dflt x ≠ 0 ∧ (n ≠ 0 → seatsAbreast dflt n = n) ∧ seatsAbreast dflt 0 = dflt := by
  have hi : ∀ n : Int, truncToInt (n : ℚ) = n := by
    intro n; unfold truncToInt; split_ifs <;> simp
  refine ⟨?_, fun h => ?_, ?_⟩
  · unfold seatsAbreast; split_ifs with h
    · exact hd
    · exact h
  · simp [seatsAbreast, hi, h]
  · have := hi 0
    simp only [Int.cast_zero] at this
    simp [seatsAbreast, this]

theorem seatPitch_spec (dflt : ℚ) (hd : dflt ≠ 0) (x : ℚ) :
    seatPitch dflt x ≠ 0 ∧ (x ≠ 0 → seatPitch dflt x = x) ∧ seatPitch dflt 0 = dflt := by
  refine ⟨?_, fun h => by simp [seatPitch, h], by simp [seatPitch]⟩
  unfold seatPitch; split_ifs with h
  · exact hd
  · exact h

/-- The strut and fold options as a decision table. -/
theorem strutFold_table (strut fold : ℚ) :
    (strutFold strut fold).hasStrut = decide (strut ≠ 0) ∧
    (strutFold strut fold).hasFold = decide (fold ≠ 0 ∨ strut < 0) ∧
    (strutFold strut fold).chooseFold = decide (strut = 0 ∨ (0 < strut ∧ fold = 0)) ∧
    (strutFold strut fold).dimensionSpecified = decide (1 ≤ |strut|) ∧
    (strutFold strut fold).dimensionless = (if |strut| < 1 then some |strut| else none) ∧
    (1 ≤ |strut| → (strutFold strut fold).attachment = |strut|) ∧
    (strutFold strut fold).foldDimensionSpecified =
      decide ((strut < 0) ∨ (0 < strut ∧ fold ≠ 0) ∨ (strut = 0 ∧ 1 < fold)) := by
  unfold strutFold
  dsimp only
  rcases lt_trichotomy strut 0 with h | h | h
  · have h1 : ¬ strut = 0 := h.ne
    have h2 : ¬ 0 < strut := not_lt.2 h.le
    have h3 : decide (strut < 0) = true := by simp [h]
    simp only [h3, if_true, h, h1, h2, abs_of_neg h]
    by_cases hs : -strut < 1
    · have : ¬ 1 ≤ -strut := not_le.2 hs
      simp [hs, this]
    · have : 1 ≤ -strut := not_lt.1 hs
      simp [hs, this]
  · subst h
    by_cases hf : fold = 0
    · subst hf; simp
    · simp [hf]
  · have h1 : ¬ strut = 0 := h.ne'
    have h2 : ¬ strut < 0 := not_lt.2 h.le
    have h3 : decide (strut < 0) = false := by simp [h.le]
    simp only [h3, h, h1, h2, abs_of_pos h, Bool.false_eq_true, if_false]
    by_cases hf : fold = 0 <;> by_cases hs : strut < 1
    · have : ¬ 1 ≤ strut := not_le.2 hs
      simp [hf, hs, this]
    · have : 1 ≤ strut := not_lt.1 hs
      simp [hf, hs, this]
    · have : ¬ 1 ≤ strut := not_le.2 hs
      simp [hf, hs, this]
    · have : 1 ≤ strut := not_lt.1 hs
      simp [hf, hs, this]

/-- A small negative location is stored as its absolute value without dimension, but the dimensional location keeps
the negative number. -/
theorem strutFold_attachment_violated (strut fold : ℚ) (h0 : strut < 0) (h1 : -1 < strut) :
    (strutFold strut fold).attachment = strut ∧ (strutFold strut fold).attachment < 0 := by
  have : (strutFold strut fold).attachment = strut := by
    unfold strutFold
    have h3 : decide (strut < 0) = true := by simp [h0]
    have h4 : decide (|strut| < 1) = true := by rw [abs_of_neg h0]; simp; linarith
    simp [h3, h4]
  exact ⟨this, by rw [this]; exact h0⟩

/-- The numbers 1 to 7 are the seven flap types. -/
theorem flapType_table (i : ℕ) (h : i < 7) : flapType (.num (i + 1)) = .ok (flapTypes[i]'(by simpa [flapTypes] using h)) := by
  rcases i with _ | _ | _ | _ | _ | _ | _ | i
  all_goals first | rfl | omega

/-- Every known flap type gets complete data: a positive mass coefficient, and non-zero deflection and increments; values
of the deck that are not zero are kept. -/
theorem flaps_ok (s : String) (hs : s ∈ flapTypes) (f : Flap) : ∃ g, flaps (.name s) f = .ok (s, g) ∧
    0 < g.mass ∧ g.deflection ≠ 0 ∧ g.lift ≠ 0 ∧ g.drag ≠ 0 ∧ (0 < f.mass → g.mass = f.mass) ∧
    (f.deflection ≠ 0 → g.deflection = f.deflection) ∧ (f.lift ≠ 0 → g.lift = f.lift) ∧ (f.drag ≠ 0 → g.drag = f.drag) := by
  have key : ∀ s ∈ flapTypes, ∃ i : Fin 7, flapIndex s = .ok i.1 := by decide
  obtain ⟨i, hi⟩ := key s hs
  refine ⟨flapData i f, by simp [flaps, flapType, hi, bind, Except.bind], ?_⟩
  unfold flapData
  dsimp only
  refine ⟨?_, ?_, ?_, ?_, fun h => if_neg (not_le.2 h), fun h => if_neg h, fun h => if_neg h, fun h => if_neg h⟩
  · split_ifs with h
    · (rcases i with ⟨_ | _ | _ | _ | _ | _ | _ | i, hi'⟩ <;> first | (exfalso; omega) | norm_num)
    · exact not_le.1 h
  all_goals
    split_ifs with h
    · (rcases i with ⟨_ | _ | _ | _ | _ | _ | _ | i, hi'⟩ <;> first | (exfalso; omega) | norm_num)
    · exact h

/-- The table row of the default flap type. -/
example : flaps (.name "single_slotted") ⟨-1, 0, 0, 0⟩ = .ok ("single_slotted", ⟨0.733, 40, 1.18, 0.13⟩) := by
  have : flapIndex "single_slotted" = .ok 2 := by decide
  simp [flaps, flapType, this, flapData, bind, Except.bind]

/-- Number 0 is accepted and means the last type. -/
theorem flapType_zero_violated : flapType (.num 0) = .ok "double_slotted_fowler" := by decide

theorem flapType_range (i : Int) (h : 7 < i) : flapType (.num i) = .error .indexError := by
  have h1 : ¬ i - 1 < 0 := by omega
  have h2 : (flapTypes)[(i - 1).toNat]? = none := by
    rw [List.getElem?_eq_none_iff]
    have : flapTypes.length = 7 := by decide
    omega
  simp only [flapType, pyIndex, h1, if_false, h2]

/-- The reserve fuel of the deck: not positive is a fraction of the mission fuel, ten and more is a mass. -/
theorem reserve_partial (x : ℚ) :
    (x ≤ 0 → (reserve x).margin = some (100 * |x|) ∧ (reserve x).additional = 0) ∧
    (10 ≤ x → (reserve x).margin = none ∧ (reserve x).additional = x) := by
  constructor
  · intro h
    simp only [reserve, h, if_true, abs_of_nonpos h]
    exact ⟨by ring_nf, trivial⟩
  · intro h
    have h1 : ¬ x ≤ 0 := by linarith
    have h2 : ¬ x < 10 := by linarith
    simp [reserve, h1, h2]

/-- Numbers between 0 and 10 (the GASP default is 1) are not refused but dropped. -/
theorem reserve_violated (x : ℚ) (h0 : 0 < x) (h1 : x < 10) : reserve x = ⟨none, 0⟩ := by
  simp [reserve, not_le.2 h0, h1]

/-- A negative fuel volume margin is set to zero pounds although the margin has no units. -/
theorem volumeMargin_violated (x : ℚ) (h : x < 0) : volumeMargin x "unitless" = (0, "lbm") := by simp [volumeMargin, h]

theorem volumeMargin_partial (x : ℚ) (u : String) : 0 ≤ (volumeMargin x u).1 ∧ (0 ≤ x → volumeMargin x u = (x, u)) := by
  unfold volumeMargin
  refine ⟨?_, fun h => if_neg (not_lt.2 h)⟩
  split_ifs with h
  · exact le_rfl
  · exact not_lt.1 h

/-- Exactly one of furnishing mass and scaler is stored, neither is negative; the scaler carries mass units. -/
theorem furnishings_spec (x : ℚ) :
    (0 ≤ x → furnishings x = (some x, none)) ∧ (x < 0 → furnishings x = (none, some (-x, "lbm"))) := by
  refine ⟨fun h => if_neg (not_lt.2 h), fun h => ?_⟩
  rw [furnishings, if_pos h, abs_of_neg h]

/-! ## C74: FLOPS special cases -/

theorem scalerAsMass_spec (x : ℚ) :
    (1 ≤ x → scalerAsMass x = (some x, 0)) ∧ (x < 1 → scalerAsMass x = (none, x)) :=
  ⟨fun h => if_pos h, fun h => if_neg (not_le.2 h)⟩

/-- Below 50 the wing fuel capacity of the deck is a factor on two thirds of the density: the resulting fraction gives it
back; negative means 23. Otherwise the capacity is kept. -/
theorem wingFuel_spec (c density : ℚ) (hd : 0 < density) :
    (c < 0 → ∃ f, wingFuel (some c) density = .ok (none, some f) ∧ f * density * (2 / 3) = 23) ∧
    (0 ≤ c → c < 50 → ∃ f, wingFuel (some c) density = .ok (none, some f) ∧ f * density * (2 / 3) = c) ∧
    (50 ≤ c → wingFuel (some c) density = .ok (some c, none)) := by
  have h0 : density * (2 / 3) ≠ 0 := by positivity
  refine ⟨fun h => ?_, fun h1 h2 => ?_, fun h => ?_⟩
  · have : c < 50 := by linarith
    refine ⟨23 / (density * (2 / 3)), by simp [wingFuel, this, h, hd.ne'], by field_simp⟩
  · refine ⟨c / (density * (2 / 3)), by simp [wingFuel, h2, not_lt.2 h1, hd.ne'], by field_simp⟩
  · simp [wingFuel, not_lt.2 h]

theorem landingLift_spec (c : ℚ) (o : Option ℚ) :
    landingLift (some c) o = c ∧ landingLift none (some c) = 169 / 100 * c ∧ landingLift none none = 3 := by
  refine ⟨rfl, ?_, rfl⟩
  simp only [landingLift]; norm_num

/-- After the centre line station is added the station, chord and thickness lists have the same length, the sweep list
one less, whenever the deck gives at least as many entries as stations. -/
theorem bwbStations_lengths (s : Stations) (h1 : s.station.length ≤ s.chord.length)
    (h2 : s.station.length - 1 ≤ s.sweep.length) (h3 : s.station.length ≤ s.thickness.length) (h0 : s.station ≠ []) :
    (bwbStations s).chord.length = (bwbStations s).station.length ∧
    (bwbStations s).thickness.length = (bwbStations s).station.length ∧
    (bwbStations s).sweep.length + 1 = (bwbStations s).station.length ∧
    (bwbStations s).station.tail = s.station ∧
    (∀ i, i < s.station.length → (bwbStations s).chord[i + 1]? = s.chord[i]? ∧
      (bwbStations s).thickness[i + 1]? = s.thickness[i]?) := by
  have : 0 < s.station.length := List.length_pos_of_ne_nil h0
  refine ⟨by simp [bwbStations]; omega, by simp [bwbStations]; omega, by simp [bwbStations]; omega, rfl, ?_⟩
  intro i hi
  simp [bwbStations, List.getElem?_take, hi]

example : bwbStations ⟨[1/2, 1], [3, 2], [30], [1/10, 1/12]⟩ = ⟨[0, 1/2, 1], [-1, 3, 2], [0, 30], [-1, 1/10, 1/12]⟩ := by
  simp [bwbStations]

/-- A value with its default, as the code tests it. -/
theorem fill_below (c : ℚ) (y : Option ℚ) (w : ℚ) : (if missing y (below c) = true then some w else y) =
    some (match y with | some z => if z < c then w else z | none => w) := by
  cases y with
  | none => simp [missing]
  | some z => by_cases h : z < c <;> simp [missing, below, h]

theorem fill_zero (y : Option ℚ) (w : ℚ) : (if missing y isZero = true then some w else y) =
    some (match y with | some z => if z = 0 then w else z | none => w) := by
  cases y with
  | none => simp [missing]
  | some z => by_cases h : z = 0 <;> simp [missing, isZero, h]

/-- A deck that gives sweep and aspect ratio of the horizontal tail: the tails take what is missing from the wing and
from the horizontal tail. -/
theorem tailDefaults_partial (t : Tails) (x a : ℚ) (hs : t.htSweep = some x) (hx : -90 ≤ x) (ha : t.htAR = some a)
    (ha0 : 0 ≤ a) (w : ℚ) (hw : t.wingTaper = some w) (tc : ℚ) (htc : t.wingTC = some tc) :
    ∃ taper, some taper = some (match t.htTaper with | some z => if z < 0 then w else z | none => w) ∧
    tailDefaults t = .ok { t with
      htTC := some (match t.htTC with | some z => if z = 0 then tc else z | none => tc)
      vtTC := some (match t.vtTC with | some z => if z = 0 then tc else z | none => tc)
      htTaper := some taper
      vtTaper := some (match t.vtTaper with | some z => if z < 0 then taper else z | none => taper)
      vtSweep := some (match t.vtSweep with | some z => if z < -90 then x else z | none => x)
      vtAR := some (match t.vtAR with | some z => if z < 0 then a / 2 else z | none => a / 2) } := by
  obtain ⟨wingTC, wingTaper, wingSweep, wingAR, htTC, vtTC, htTaper, vtTaper, htSweep, vtSweep, htAR, vtAR⟩ := t
  simp only at hs ha hw htc
  subst hs ha hw htc
  refine ⟨_, rfl, ?_⟩
  have hx' : missing (some x) (below (-90)) = false := by simp [missing, below, hx]
  have ha' : missing (some a) (below 0) = false := by simp [missing, below, ha0]
  have e1 : tailTC ⟨some tc, some w, wingSweep, wingAR, htTC, vtTC, htTaper, vtTaper, some x, vtSweep, some a, vtAR⟩ =
      ⟨some tc, some w, wingSweep, wingAR, if missing htTC isZero = true then some tc else htTC,
        if missing vtTC isZero = true then some tc else vtTC, htTaper, vtTaper, some x, vtSweep, some a, vtAR⟩ := by
    unfold tailTC
    by_cases c1 : missing htTC isZero = true <;> by_cases c2 : missing vtTC isZero = true <;> simp [c1, c2]
  have e2 : ∀ htTC vtTC, tailTaper ⟨some tc, some w, wingSweep, wingAR, htTC, vtTC, htTaper, vtTaper, some x, vtSweep,
      some a, vtAR⟩ = .ok ⟨some tc, some w, wingSweep, wingAR, htTC, vtTC,
        if missing htTaper (below 0) = true then some w else htTaper,
        if missing vtTaper (below 0) = true then (if missing htTaper (below 0) = true then some w else htTaper)
          else vtTaper, some x, vtSweep, some a, vtAR⟩ := by
    intro htTC vtTC
    unfold tailTaper
    rcases htTaper with _ | z
    · have c0 : missing none (below 0) = true := rfl
      simp [c0]
    · by_cases c1 : missing (some z) (below 0) = true <;> simp [c1]
  have e3 : ∀ htTC vtTC htTaper vtTaper, tailSweep ⟨some tc, some w, wingSweep, wingAR, htTC, vtTC, htTaper, vtTaper,
      some x, vtSweep, some a, vtAR⟩ = .ok ⟨some tc, some w, wingSweep, wingAR, htTC, vtTC, htTaper, vtTaper, some x,
        if missing vtSweep (below (-90)) = true then some x else vtSweep, some a, vtAR⟩ := by
    intro htTC vtTC htTaper vtTaper
    unfold tailSweep
    by_cases c1 : missing vtSweep (below (-90)) = true <;> simp [hx', c1]
  have e4 : ∀ htTC vtTC htTaper vtTaper vtSweep, tailAR ⟨some tc, some w, wingSweep, wingAR, htTC, vtTC, htTaper,
      vtTaper, some x, vtSweep, some a, vtAR⟩ = .ok ⟨some tc, some w, wingSweep, wingAR, htTC, vtTC, htTaper, vtTaper,
        some x, vtSweep, some a, if missing vtAR (below 0) = true then some (a / 2) else vtAR⟩ := by
    intro htTC vtTC htTaper vtTaper vtSweep
    unfold tailAR
    by_cases c1 : missing vtAR (below 0) = true <;> simp [ha', c1]
  unfold tailDefaults
  rw [e1, e2]
  simp only [bind, Except.bind]
  rw [e3]
  simp only []
  rw [e4, fill_zero, fill_zero, fill_below, fill_below, fill_below, fill_below]

theorem tailTC_rest (t : Tails) : (tailTC t).wingTaper = t.wingTaper ∧ (tailTC t).htSweep = t.htSweep ∧
    (tailTC t).htAR = t.htAR ∧ (tailTC t).htTaper = t.htTaper := by
  unfold tailTC
  dsimp only
  split_ifs <;> exact ⟨rfl, rfl, rfl, rfl⟩

theorem tailTaper_rest (t r : Tails) (h : tailTaper t = .ok r) : r.htSweep = t.htSweep ∧ r.htAR = t.htAR := by
  unfold tailTaper at h
  cases hw : t.wingTaper with
  | none =>
    rw [hw] at h
    split_ifs at h <;> cases h <;> exact ⟨rfl, rfl⟩
  | some x =>
    rw [hw] at h
    split_ifs at h <;> cases h <;> exact ⟨rfl, rfl⟩

/-- A deck without the sweep of the horizontal tail is refused with `AttributeError` instead of using the wing's. -/
theorem tailSweep_violated (t : Tails) (h : t.htSweep = none) (w : ℚ) (hw : t.wingTaper = some w) :
    tailDefaults t = .error .attributeError := by
  obtain ⟨r1, r2, r3, r4⟩ := tailTC_rest t
  have : ∃ r, tailTaper (tailTC t) = .ok r := by
    unfold tailTaper
    rw [r1, hw]
    split_ifs <;> exact ⟨_, rfl⟩
  obtain ⟨r, hr⟩ := this
  have h1 := (tailTaper_rest _ _ hr).1
  rw [r2, h] at h1
  have h2 : tailSweep r = .error .attributeError := by simp [tailSweep, h1, missing]
  simp [tailDefaults, hr, bind, Except.bind, h2]

/-- The same for the aspect ratio. -/
theorem tailAspect_violated (t : Tails) (h : t.htAR = none) : ∃ e, tailDefaults t = .error e := by
  obtain ⟨r1, r2, r3, r4⟩ := tailTC_rest t
  unfold tailDefaults
  cases hr : tailTaper (tailTC t) with
  | error e => exact ⟨e, rfl⟩
  | ok r =>
    have h1 := (tailTaper_rest _ _ hr).2
    rw [r3, h] at h1
    simp only [bind, Except.bind]
    cases hs : tailSweep r with
    | error e => exact ⟨e, rfl⟩
    | ok q =>
      have h2 : q.htAR = none := by
        unfold tailSweep at hs
        split_ifs at hs <;> cases hs <;> exact h1
      exact ⟨.attributeError, by simp [tailAR, h2, missing]⟩

/-- A wing without taper ratio and a tail without one: `KeyError`. -/
theorem tailTaper_violated (t : Tails) (h : t.htTaper = none) (hw : t.wingTaper = none) :
    tailDefaults t = .error .keyError := by
  obtain ⟨r1, r2, r3, r4⟩ := tailTC_rest t
  simp [tailDefaults, tailTaper, r1, r4, h, hw, missing, bind, Except.bind]

/-- The mission-wide fuel flow factor multiplies both factors, once. -/
theorem fuelFlow_spec (sub sup : Option ℚ) (f : ℚ) :
    fuelFlowFactors sub sup (some f) = (some (sub.getD 1 * f), some (sup.getD 1 * f), none) ∧
    fuelFlowFactors sub sup none = (sub, sup, none) := ⟨rfl, rfl⟩

theorem removeIf_spec (cond : ℚ → Bool) (names : List Txt) : ∀ (d : NumDict), d.keys.Nodup → ∀ k,
    (removeIf cond names d).get? k =
      match d.get? k with
      | none => none
      | some (x, u) => if k ∈ names ∧ cond x = true then none else some (x, u) := by
  induction names with
  | nil => intro d _ k; simp only [removeIf, List.foldl_nil]; cases d.get? k <;> simp
  | cons n names ih =>
    intro d hd k
    rw [removeIf, List.foldl_cons]
    change (removeIf cond names _).get? k = _
    cases hn : d.get? n with
    | none =>
      dsimp only
      rw [ih d hd k]
      cases hk : d.get? k with
      | none => rfl
      | some p =>
        have : k ≠ n := by rintro rfl; rw [hn] at hk; cases hk
        simp [this]
    | some p =>
      obtain ⟨x, u⟩ := p
      dsimp only
      by_cases hc : cond x = true
      · rw [if_pos hc, ih _ (nodup_erase _ _ hd) k, get?_erase _ hd]
        by_cases hk : n = k
        · subst hk; simp [hn, hc]
        · simp only [hk, if_false]
          cases d.get? k with
          | none => rfl
          | some q => simp [Ne.symm hk]
      · rw [if_neg hc, ih d hd k]
        by_cases hk : k = n
        · subst hk; simp [hn, hc]
        · cases d.get? k with
          | none => rfl
          | some q => simp [hk]

end Verif.Fortran
