import Verif.Model.MissionEditor
import Verif.Lemmas.SigRound
import Verif.Lemmas.Dict
import Mathlib.Tactic.Linarith

/-!
# The graphical editor of missions

A session of the editor keeps points, orders and check boxes together; a saved mission is opened as it was saved.
-/

namespace Verif.MissionEditor

/-- The lists of the editor belong together: three numbers for each point, an order for each phase, a row for each point,
a check box for each phase if they are shown. -/
structure Inv (e : Editor) : Prop where
  alt : (e.data .alt).length = e.n
  mach : (e.data .mach).length = e.n
  orders : e.orders.length = e.n - 1
  rows : e.rows = e.n
  altF : e.altFlags.length = if e.showOpt then e.n - 1 else 0
  machF : e.machFlags.length = if e.showOpt then e.n - 1 else 0
  nonneg : ∀ a, ∀ x ∈ e.data a, 0 ≤ x

theorem inv_start : Inv {} where
  alt := rfl
  mach := rfl
  orders := rfl
  rows := rfl
  altF := rfl
  machF := rfl
  nonneg := by intro a x hx; cases a <;> simp_all; norm_num

/-! ## The table -/

/-- The check boxes of `todo` rows from `row ≥ 1` on. -/
def pick (fl : Option (List Bool)) (row todo : ℕ) : List Bool :=
  match fl with
  | none => List.replicate todo false
  | some l => (l.drop (row - 1)).take todo

theorem addRows_spec (fl : Option (List Bool × List Bool)) (todo : ℕ) : ∀ (row : ℕ) (e : Editor), 1 ≤ row →
    row + todo ≤ (e.data .alt).length → row + todo ≤ (e.data .mach).length →
    (∀ f, fl = some f → row - 1 + todo ≤ f.1.length ∧ row - 1 + todo ≤ f.2.length) →
    addRows e fl todo row = ({ e with
      rows := e.rows + todo
      altFlags := e.altFlags ++ (if e.showOpt then pick (fl.map (·.1)) row todo else [])
      machFlags := e.machFlags ++ (if e.showOpt then pick (fl.map (·.2)) row todo else []) }, none) := by
  induction todo with
  | zero =>
    intro row e h1 ha hm hf
    cases fl <;> simp [addRows, pick]
  | succ k ih =>
    intro row e h1 ha hm hf
    have n1 : ¬((e.data .alt).length ≤ row ∨ (e.data .mach).length ≤ row) := by omega
    rw [addRows, if_neg n1]
    dsimp only
    cases hs : e.showOpt with
    | false =>
      rw [if_pos (Or.inr rfl), ih (row + 1) _ (by omega) (by simpa using by omega) (by simpa using by omega)
        (fun f h => by have := hf f h; omega)]
      simp [Nat.add_comm 1, Nat.add_assoc]
    | true =>
      rw [if_neg (by simp; omega)]
      cases fl with
      | none =>
        dsimp only
        rw [ih (row + 1) _ (by omega) (by simpa using by omega) (by simpa using by omega) (fun f h => by simp at h)]
        simp [pick, List.replicate_succ, Nat.add_comm 1, Nat.add_assoc]
      | some f =>
        obtain ⟨fa, fm⟩ := f
        obtain ⟨l1, l2⟩ := hf _ rfl
        dsimp only at l1 l2 ⊢
        have g1 : fa[row - 1]? = some fa[row - 1] := List.getElem?_eq_getElem (by omega)
        have g2 : fm[row - 1]? = some fm[row - 1] := List.getElem?_eq_getElem (by omega)
        rw [g1, g2]
        dsimp only
        rw [ih (row + 1) _ (by omega) (by simpa using by omega) (by simpa using by omega)
          (fun f h => by cases h; dsimp only; omega)]
        have d1 : fa.drop (row - 1) = fa[row - 1] :: fa.drop row := by
          rw [List.drop_eq_getElem_cons (by omega)]; congr 2; omega
        have d2 : fm.drop (row - 1) = fm[row - 1] :: fm.drop row := by
          rw [List.drop_eq_getElem_cons (by omega)]; congr 2; omega
        simp [pick, d1, d2, Nat.add_comm 1, Nat.add_assoc]

/-- The whole table is written anew. -/
theorem updateTable_all {e : Editor} (fl : Option (List Bool × List Bool)) (hr : 0 < e.rows)
    (ha : (e.data .alt).length = e.n) (hm : (e.data .mach).length = e.n)
    (hf : ∀ f, fl = some f → e.showOpt = true → e.n - 1 ≤ f.1.length ∧ e.n - 1 ≤ f.2.length) :
    updateTable e true fl = ({ e with
      rows := e.n
      altFlags := if e.showOpt then pick (fl.map (·.1)) 1 (e.n - 1) else []
      machFlags := if e.showOpt then pick (fl.map (·.2)) 1 (e.n - 1) else [] }, none) := by
  rw [updateTable, if_pos ⟨rfl, hr⟩]
  cases hn : e.n with
  | zero => cases fl <;> simp [addRows, pick]
  | succ k =>
    have n1 : ¬((e.data .alt).length ≤ 0 ∨ (e.data .mach).length ≤ 0) := by omega
    rw [addRows]
    dsimp only
    rw [if_neg n1, if_pos (Or.inl rfl)]
    cases hs : e.showOpt with
    | true =>
      rw [addRows_spec fl k 1 _ le_rfl (by simpa using by omega) (by simpa using by omega)
        (fun f h => by have := hf f h hs; omega)]
      simp [Nat.add_comm]
    | false =>
      have key : ∀ (todo row : ℕ) (e' : Editor), e'.showOpt = false → row + todo ≤ (e'.data .alt).length →
          row + todo ≤ (e'.data .mach).length →
          addRows e' fl todo row = ({ e' with rows := e'.rows + todo }, none) := by
        intro todo
        induction todo with
        | zero => intro row e' _ _ _; rfl
        | succ j ih =>
          intro row e' h0 h1 h2
          rw [addRows, if_neg (by omega)]
          dsimp only
          rw [if_pos (Or.inr h0), ih (row + 1) _ (by exact h0) (by simpa using by omega) (by simpa using by omega)]
          simp [Nat.add_comm 1, Nat.add_assoc]
      rw [key k 1 _ rfl (by simpa using by omega) (by simpa using by omega)]
      simp [Nat.add_comm]

/-- One row is added for the last point. -/
theorem updateTable_last {e : Editor} (hn : 0 < e.n) (ha : (e.data .alt).length = e.n) (hm : (e.data .mach).length = e.n) :
    updateTable e false none = ({ e with
      rows := e.rows + 1
      altFlags := e.altFlags ++ (if e.showOpt && decide (1 < e.n) then [false] else [])
      machFlags := e.machFlags ++ (if e.showOpt && decide (1 < e.n) then [false] else []) }, none) := by
  rw [updateTable, if_neg (by simp), if_neg (by omega)]
  by_cases h1 : e.n = 1
  · rw [h1, addRows, if_neg (by omega)]
    simp [addRows]
  · rw [addRows_spec none 1 (e.n - 1) e (by omega) (by omega) (by omega) (fun f h => by simp at h)]
    have : decide (1 < e.n) = true := by simp; omega
    simp [pick, this]

/-! ## The callbacks -/

theorem updateList_append {e : Editor} {v : ℚ} (hv : 0 ≤ v) (a : Axis) : updateList e (some v) e.n a =
    (let e' := e.put a (e.data a ++ [v])
     if e'.orders.length < e'.n - 1 then { e' with orders := e'.orders ++ [orderDefault] } else e', none) := by
  unfold updateList
  simp only [if_neg (not_lt.2 hv), ↓reduceIte]
  split_ifs <;> rfl

@[simp] theorem put_same (e : Editor) (a : Axis) (l : List ℚ) : (e.put a l).data a = l := by simp [Editor.put]

theorem put_ne (e : Editor) {a b : Axis} (h : b ≠ a) (l : List ℚ) : (e.put a l).data b = e.data b := by simp [Editor.put, h]

/-- A point with non-negative numbers is appended to all lists, and a phase of the default order ends there. -/
theorem addPoint_spec {e : Editor} (h : Inv e) {x y m : ℚ} (hx : 0 ≤ x) (hy : 0 ≤ y) (hm : 0 ≤ m) :
    addPoint e x y m = ({ e with
      data := fun | .time => e.data .time ++ [x] | .alt => e.data .alt ++ [y] | .mach => e.data .mach ++ [m]
      orders := e.orders ++ (if 0 < e.n then [orderDefault] else []) }, none) := by
  unfold addPoint
  rw [updateList_append hx]
  have ho := h.orders
  set e1 : Editor := (let e' := e.put .time (e.data .time ++ [x])
     if e'.orders.length < e'.n - 1 then { e' with orders := e'.orders ++ [orderDefault] } else e') with he1
  have hE1 : e1 = { e with
      data := fun a => if a = .time then e.data .time ++ [x] else e.data a
      orders := e.orders ++ (if 0 < e.n then [orderDefault] else []) } := by
    rw [he1]
    dsimp only [Editor.put, Editor.n]
    by_cases hn : 0 < e.n
    · have hn' : 0 < (e.data .time).length := hn
      rw [if_pos (by simp [ho]; omega), if_pos hn']
    · have hn' : ¬ 0 < (e.data .time).length := hn
      rw [if_neg (by simp at hn'; simp [ho, hn', Editor.n]), if_neg hn', List.append_nil]
  have hl : e1.orders.length = e.n := by
    rw [hE1]; dsimp only; split_ifs with hn <;> simp <;> omega
  have hn1 : e1.n = e.n + 1 := by rw [hE1]; simp [Editor.n]
  simp only [Res.andThen]
  rw [updateList_append hy]
  have st : ∀ (a : Axis) (l : List ℚ) (q : Editor), a ≠ .time → q.orders.length = e.n → q.n = e.n + 1 →
      (let e' := q.put a l
       if e'.orders.length < e'.n - 1 then { e' with orders := e'.orders ++ [orderDefault] } else e') = q.put a l := by
    intro a l q ha h1 h2
    have : ¬ ((q.put a l).orders.length < (q.put a l).n - 1) := by
      have : (q.put a l).n = q.n := by simp [Editor.n, put_ne q (Ne.symm ha)]
      rw [this]; simp [Editor.put]; omega
    simp only [if_neg this]
  rw [st .alt _ e1 (by decide) hl hn1]
  dsimp only
  rw [updateList_append hm, st .mach _ _ (by decide) (by simpa [Editor.put] using hl)
    (by simpa [Editor.n, put_ne e1 (show Axis.time ≠ .alt by decide)] using hn1)]
  congr 1
  rw [hE1]
  simp only [Editor.put, Editor.mk.injEq, and_true]
  funext a
  cases a <;> simp

theorem redraw_ok {e : Editor} (ha : (e.data .alt).length = e.n) (hm : (e.data .mach).length = e.n) :
    redraw e = (e, none) := if_pos ⟨ha, hm⟩

/-- A new point keeps the lists together. -/
theorem point_inv {e : Editor} (h : Inv e) {x y m : ℚ} (hx : 0 ≤ x) (hy : 0 ≤ y) (hm : 0 ≤ m) :
    Inv (((addPoint e x y m).andThen redraw).andThen fun e => updateTable e false none).1 ∧
      (((addPoint e x y m).andThen redraw).andThen fun e => updateTable e false none).2 = none := by
  rw [addPoint_spec h hx hy hm]
  simp only [Res.andThen]
  rw [redraw_ok (by simpa [Editor.n] using h.alt) (by simpa [Editor.n] using h.mach)]
  dsimp only
  rw [updateTable_last (by simp [Editor.n]) (by simpa [Editor.n] using h.alt) (by simpa [Editor.n] using h.mach)]
  refine ⟨?_, rfl⟩
  have e1 := h.altF
  have e2 := h.machF
  constructor
  · simpa [Editor.n] using h.alt
  · simpa [Editor.n] using h.mach
  · have := h.orders
    dsimp only [Editor.n] at this ⊢
    split_ifs <;> simp <;> omega
  · simpa [Editor.n] using h.rows
  · dsimp only [Editor.n] at e1 ⊢
    simp only [List.length_append, e1]
    cases e.showOpt
    · simp
    · by_cases hn : 0 < (e.data .time).length
      · simp [hn]; omega
      · simp at hn; simp [hn]
  · dsimp only [Editor.n] at e2 ⊢
    simp only [List.length_append, e2]
    cases e.showOpt
    · simp
    · by_cases hn : 0 < (e.data .time).length
      · simp [hn]; omega
      · simp at hn; simp [hn]
  · intro a z hz
    cases a
    · rcases List.mem_append.1 hz with hz | hz
      · exact h.nonneg _ _ hz
      · rw [List.mem_singleton.1 hz]; exact hx
    · rcases List.mem_append.1 hz with hz | hz
      · exact h.nonneg _ _ hz
      · rw [List.mem_singleton.1 hz]; exact hy
    · rcases List.mem_append.1 hz with hz | hz
      · exact h.nonneg _ _ hz
      · rw [List.mem_singleton.1 hz]; exact hm

/-- A number of an existing point is replaced, or kept if the new text is no number or is negative. -/
theorem updateList_set {e : Editor} (h : Inv e) (v : Option ℚ) {i : ℕ} (hi : i < e.n) (a : Axis) :
    updateList e v i a = (e.put a (match v with
      | none => e.data a
      | some x => if x < 0 then e.data a else (e.data a).set i x), none) := by
  have hself : ∀ l, l = e.data a → e.put a l = e := by
    intro l hl
    cases e with
    | mk data => simp only [Editor.put, Editor.mk.injEq, and_true]; funext b; split_ifs with hb <;> simp_all
  have hlen : i < (e.data a).length := by cases a <;> simp [h.alt, h.mach, hi]
  cases v with
  | none => simp [updateList, hself _ rfl]
  | some x =>
    unfold updateList
    by_cases hx : x < 0
    · simp only [if_pos hx, hself _ rfl]
    · simp only [if_neg hx, if_neg (show ¬ i = e.n by omega), if_pos hlen]

theorem put_inv {e : Editor} (h : Inv e) (a : Axis) {l : List ℚ} (hl : l.length = (e.data a).length) (hp : ∀ x ∈ l, 0 ≤ x) :
    Inv (e.put a l) := by
  have hlen : ∀ b, ((e.put a l).data b).length = (e.data b).length := by
    intro b; by_cases hb : b = a
    · subst hb; simp [hl]
    · rw [put_ne e hb]
  have hn : (e.put a l).n = e.n := hlen .time
  refine ⟨?_, ?_, ?_, ?_, ?_, ?_, ?_⟩
  · rw [hlen, hn]; exact h.alt
  · rw [hlen, hn]; exact h.mach
  · rw [hn]; exact h.orders
  · rw [hn]; exact h.rows
  · rw [hn]; exact h.altF
  · rw [hn]; exact h.machF
  · intro b x hx
    by_cases hb : b = a
    · subst hb; rw [put_same] at hx; exact hp x hx
    · rw [put_ne e hb] at hx; exact h.nonneg b x hx

theorem updateList_inv {e : Editor} (h : Inv e) (v : Option ℚ) {i : ℕ} (hi : i < e.n) (a : Axis) :
    Inv (updateList e v i a).1 ∧ (updateList e v i a).2 = none ∧ (updateList e v i a).1.n = e.n := by
  rw [updateList_set h v hi a]
  have key : Inv (e.put a (match v with
      | none => e.data a
      | some x => if x < 0 then e.data a else (e.data a).set i x)) ∧
      ((e.put a (match v with
      | none => e.data a
      | some x => if x < 0 then e.data a else (e.data a).set i x)).n = e.n) := by
    have hl : (match v with
      | none => e.data a
      | some x => if x < 0 then e.data a else (e.data a).set i x).length = (e.data a).length := by
      cases v with
      | none => rfl
      | some x => dsimp only; split_ifs <;> simp
    refine ⟨put_inv h a hl ?_, ?_⟩
    · intro z hz
      cases v with
      | none => exact h.nonneg a z hz
      | some x =>
        dsimp only at hz
        split_ifs at hz with hx
        · exact h.nonneg a z hz
        · rcases List.mem_or_eq_of_mem_set hz with hz | hz
          · exact h.nonneg a z hz
          · rw [hz]; exact not_lt.1 hx
    · by_cases ha : a = .time
      · subst ha; simpa [Editor.n] using hl
      · simp [Editor.n, put_ne e (Ne.symm ha)]
  exact ⟨key.1, rfl, key.2⟩

/-- What the callbacks can be trusted with: see `session_inv`. -/
def Safe (e : Editor) : Event → Prop
  | .addRow => ∀ a, 0 ≤ e.limits a
  | .click _ x y => 0 ≤ x ∧ 0 ≤ y ∧ (∀ a, 0 ≤ e.limits a) ∧ ∀ t ∈ e.data .time, t < x
  | .drag i _ _ _ => i < e.n
  | .edit r _ _ => r < e.n
  | .delete r => 0 < r ∧ r < e.n
  | .load _ => False
  | _ => True

theorem edit_inv {e : Editor} (h : Inv e) (v : Option ℚ) {i : ℕ} (hi : i < e.n) (a : Axis) :
    Inv (edit e i a v).1 ∧ (edit e i a v).2 = none := by
  obtain ⟨h1, h2, h3⟩ := updateList_inv h v hi a
  unfold edit Res.andThen
  rw [h2]
  dsimp only
  rw [redraw_ok h1.alt h1.mach]
  exact ⟨h1, rfl⟩

theorem drag_inv {e : Editor} (h : Inv e) {i : ℕ} (hi : i < e.n) (p : Axis) (x y : ℚ) :
    Inv (drag e i p x y).1 ∧ (drag e i p x y).2 = none := by
  unfold drag
  split_ifs with h0
  · exact ⟨h, rfl⟩
  · obtain ⟨h1, h2, h3⟩ := updateList_inv h (some x) hi .time
    obtain ⟨k1, k2, k3⟩ := updateList_inv h1 (some y) (i := i) (by omega) p
    simp only [Res.andThen, h2, k2]
    rw [redraw_ok k1.alt k1.mach]
    dsimp only
    rw [updateStrVars, if_pos ⟨k1.rows.ge, by rw [k1.alt, k1.rows], by rw [k1.mach, k1.rows]⟩]
    exact ⟨k1, rfl⟩

theorem toggle_inv {e : Editor} (h : Inv e) (b : Bool) : Inv (toggle e b).1 ∧ (toggle e b).2 = none := by
  unfold toggle
  by_cases hr : 0 < e.rows
  · rw [updateTable_all none (by exact hr) (by exact h.alt) (by exact h.mach) (fun f hf => by simp at hf)]
    refine ⟨⟨h.alt, h.mach, h.orders, rfl, ?_, ?_, h.nonneg⟩, rfl⟩
    · cases b <;> simp [pick, Editor.n]
    · cases b <;> simp [pick, Editor.n]
  · have hn : e.n = 0 := by have := h.rows; omega
    have hn' : (Editor.n { e with showOpt := b }) = 0 := hn
    rw [updateTable, if_neg (by dsimp only; simp; omega), if_pos hn']
    refine ⟨⟨h.alt, h.mach, h.orders, h.rows, ?_, ?_, h.nonneg⟩, rfl⟩
    · have := h.altF; rw [hn] at this; rw [hn']; dsimp only; simp at this ⊢; exact this
    · have := h.machF; rw [hn] at this; rw [hn']; dsimp only; simp at this ⊢; exact this

/-- Deleting a point other than the first takes away the phase that ends there, unticks all boxes, and keeps the lists
together. -/
theorem delete_spec {e : Editor} (h : Inv e) {r : ℕ} (h0 : 0 < r) (hr : r < e.n) :
    deletePoint e r = ({ e with
      data := fun a => (e.data a).eraseIdx r
      orders := e.orders.eraseIdx (r - 1)
      rows := e.n - 1
      altFlags := if e.showOpt then List.replicate (e.n - 2) false else []
      machFlags := if e.showOpt then List.replicate (e.n - 2) false else [] }, none) := by
  have ho := h.orders
  unfold deletePoint
  rw [if_neg (by omega)]
  simp only [if_pos (And.intro hr h0)]
  rw [if_pos ⟨hr, by rw [h.alt]; exact hr, by rw [h.mach]; exact hr⟩]
  have hn' : ∀ a, ((e.data a).eraseIdx r).length = e.n - 1 := by
    intro a
    have : (e.data a).length = e.n := by cases a <;> simp [h.alt, h.mach]
    rw [List.length_eraseIdx, if_pos (by omega), this]
  rw [redraw_ok (by dsimp only [Editor.n]; rw [hn', hn']) (by dsimp only [Editor.n]; rw [hn', hn'])]
  simp only [Res.andThen]
  rw [updateTable_all none (by dsimp only; rw [h.rows]; omega) (by dsimp only [Editor.n]; rw [hn', hn'])
    (by dsimp only [Editor.n]; rw [hn', hn']) (fun f hf => by simp at hf)]
  simp only [Editor.n, hn', pick, Option.map_none]
  rfl

theorem delete_inv {e : Editor} (h : Inv e) {r : ℕ} (h0 : 0 < r) (hr : r < e.n) :
    Inv (deletePoint e r).1 ∧ (deletePoint e r).2 = none := by
  rw [delete_spec h h0 hr]
  have hn' : ∀ a, ((e.data a).eraseIdx r).length = e.n - 1 := by
    intro a
    have : (e.data a).length = e.n := by cases a <;> simp [h.alt, h.mach]
    rw [List.length_eraseIdx, if_pos (by omega), this]
  refine ⟨⟨?_, ?_, ?_, ?_, ?_, ?_, ?_⟩, rfl⟩
  · dsimp only [Editor.n]; rw [hn', hn']
  · dsimp only [Editor.n]; rw [hn', hn']
  · dsimp only [Editor.n]; rw [hn', List.length_eraseIdx, h.orders, if_pos (by omega)]
  · dsimp only [Editor.n]; rw [hn']
  · dsimp only [Editor.n]; rw [hn']; split_ifs <;> simp [Nat.sub_sub]
  · dsimp only [Editor.n]; rw [hn']; split_ifs <;> simp [Nat.sub_sub]
  · intro a x hx; exact h.nonneg a x (List.mem_of_mem_eraseIdx hx)

/-! ### Units -/

theorem factor_pos {u : String} {q : ℚ} (h : factor u = some q) : 0 < q := by
  unfold factor at h
  split at h <;> first | (cases h; norm_num) | cases h

theorem convertAll_spec {l : List ℚ} {u v : String} {r : List ℚ} (h : convertAll l u v = .ok r) :
    r.length = l.length ∧ ((∀ x ∈ l, 0 ≤ x) → ∀ x ∈ r, 0 ≤ x) ∧
      ∀ p q, factor u = some p → factor v = some q → r = l.map fun x => x * p / q := by
  unfold convertAll at h
  induction l generalizing r with
  | nil => simp only [List.mapM_nil, pure, Except.pure, Except.ok.injEq] at h; subst h; simp
  | cons a l ih =>
    rw [List.mapM_cons] at h
    cases h1 : convert a u v with
    | error x => rw [h1] at h; cases h
    | ok y =>
      rw [h1] at h
      cases h2 : l.mapM (fun x => convert x u v) with
      | error x => rw [h2] at h; cases h
      | ok ys =>
        rw [h2] at h
        obtain rfl : y :: ys = r := Except.ok.inj h
        obtain ⟨i1, i2, i3⟩ := ih h2
        unfold convert at h1
        cases hp : factor u with
        | none => rw [hp] at h1; cases h1
        | some p =>
          cases hq : factor v with
          | none => rw [hp, hq] at h1; cases h1
          | some q =>
            rw [hp, hq] at h1
            obtain rfl : a * p / q = y := Except.ok.inj h1
            refine ⟨by simp [i1], ?_, ?_⟩
            · intro h0 x hx
              rcases List.mem_cons.1 hx with rfl | hx
              · exact div_nonneg (mul_nonneg (h0 a (by simp)) (factor_pos hp).le) (factor_pos hq).le
              · exact i2 (fun z hz => h0 z (by simp [hz])) x hx
            · intro p' q' e1 e2
              cases e1; cases e2
              rw [List.map_cons, ← i3 p q hp hq]

theorem convertAll_ok (l : List ℚ) {u v : String} {p q : ℚ} (hp : factor u = some p) (hq : factor v = some q) :
    convertAll l u v = .ok (l.map fun x => x * p / q) := by
  unfold convertAll
  induction l with
  | nil => rfl
  | cons a l ih =>
    rw [List.mapM_cons, ih]
    simp [convert, hp, hq, bind, Except.bind, pure, Except.pure]

theorem applyUnits_inv {e : Editor} (h : Inv e) (new : Axis → String) : Inv (applyUnits e new).1 := by
  unfold applyUnits
  split
  case h_2 => exact h
  case h_1 lt la lm t a m h1 h2 h3 h4 h5 h6 =>
    obtain ⟨t1, t2, -⟩ := convertAll_spec h4
    obtain ⟨a1, a2, -⟩ := convertAll_spec h5
    obtain ⟨m1, m2, -⟩ := convertAll_spec h6
    have ea : a.length = t.length := by rw [a1, t1, h.alt]
    have em : m.length = t.length := by rw [m1, t1, h.mach]
    dsimp only
    rw [redraw_ok (by simpa [Editor.n] using ea) (by simpa [Editor.n] using em)]
    simp only [Res.andThen]
    have ht : t.length = e.n := t1
    have hnn : ∀ b, ∀ x ∈ (fun | .time => t | .alt => a | .mach => m : Axis → List ℚ) b, 0 ≤ x := by
      intro b x hx
      cases b
      · exact t2 (h.nonneg .time) x hx
      · exact a2 (h.nonneg .alt) x hx
      · exact m2 (h.nonneg .mach) x hx
    by_cases hr : 0 < e.rows
    · rw [updateTable_all _ (by simpa using hr) (by simpa [Editor.n] using ea) (by simpa [Editor.n] using em)
        (fun f hf hs => by
          have s1 : e.showOpt = true := hs
          have b1 := h.altF; have b2 := h.machF
          rw [s1] at b1 b2
          cases hf
          dsimp only [Editor.n] at b1 b2 ⊢
          rw [b1, b2, t1]; simp)]
      have b1 := h.altF; have b2 := h.machF
      refine ⟨ea, em, ?_, rfl, ?_, ?_, hnn⟩
      · simpa [Editor.n, t1] using h.orders
      · dsimp only [Editor.n] at b1 ⊢
        rw [t1]
        cases hs : e.showOpt
        · simp
        · rw [hs] at b1; simp [pick, b1]
      · dsimp only [Editor.n] at b2 ⊢
        rw [t1]
        cases hs : e.showOpt
        · simp
        · rw [hs] at b2; simp [pick, b2]
    · have hn : e.n = 0 := by have := h.rows; omega
      have hn' : t.length = 0 := by omega
      rw [updateTable, if_neg (by dsimp only; simp; omega), if_pos (by simpa [Editor.n] using hn')]
      exact ⟨ea, em, by simpa [Editor.n, t1] using h.orders, by simpa [Editor.n, t1] using h.rows,
        by simpa [Editor.n, t1] using h.altF, by simpa [Editor.n, t1] using h.machF, hnn⟩

/-- One callback that is safe keeps the lists together. -/
theorem step_inv {e : Editor} (h : Inv e) {ev : Event} (hs : Safe e ev) : Inv (step e ev).1 := by
  cases ev with
  | addRow =>
    refine (point_inv h ?_ ?_ ?_).1
    · cases hl : (e.data .time).getLast? with
      | none => exact le_rfl
      | some t =>
        have := h.nonneg .time t (List.mem_of_getLast? hl)
        have := hs .time
        show 0 ≤ (e.limits .time - t) / 2 + t
        linarith [‹0 ≤ t›]
    · have := hs .alt; linarith
    · have := hs .mach; linarith
  | click p x y =>
    obtain ⟨hx, hy, hl, hlt⟩ := hs
    show Inv (click e p x y).1
    unfold click
    have hall : (e.data .time).all (· < x) = true := by rw [List.all_eq_true]; intro t ht; simpa using hlt t ht
    by_cases h0 : x = 0 ∨ y = 0
    · rw [if_pos h0]; exact h
    · rw [if_neg h0]
      simp only [hall, if_true]
      refine (point_inv h hx ?_ ?_).1
      · split_ifs
        · exact hy
        · have := hl .alt; linarith
      · split_ifs
        · exact hy
        · have := hl .mach; linarith
  | drag i p x y => exact (drag_inv h hs p x y).1
  | edit r a v => exact (edit_inv h v hs a).1
  | delete r => exact (delete_inv h hs.1 hs.2).1
  | toggle b => exact (toggle_inv h b).1
  | tick i a b =>
    show Inv (tick e i a b).1
    unfold tick
    cases a <;> dsimp only
    · exact h
    · exact ⟨h.alt, h.mach, h.orders, h.rows, by simpa using h.altF, h.machF, h.nonneg⟩
    · exact ⟨h.alt, h.mach, h.orders, h.rows, h.altF, by simpa using h.machF, h.nonneg⟩
  | order i v =>
    show Inv (setOrder e i v).1
    unfold setOrder
    split_ifs
    · exact ⟨h.alt, h.mach, by simpa using h.orders, h.rows, h.altF, h.machF, h.nonneg⟩
    · exact h
  | limit a v => exact ⟨h.alt, h.mach, h.orders, h.rows, h.altF, h.machF, h.nonneg⟩
  | units new => exact applyUnits_inv h new
  | load f => exact hs.elim

/-- All callbacks of a session are safe when they are called. -/
def SafeRun : Editor → List Event → Prop
  | _, [] => True
  | e, ev :: evs => Safe e ev ∧ SafeRun (step e ev).1 evs

/-- **Sessions**: however long a session, as long as points are added after the last one, only later points than the first are
deleted and limits are not negative, the editor keeps an order for each phase and a row and a box for each point. -/
theorem session_inv (evs : List Event) : ∀ {e : Editor}, Inv e → SafeRun e evs → Inv (session e evs) := by
  induction evs with
  | nil => intro e h _; exact h
  | cons ev evs ih => intro e h hs; exact ih (step_inv h hs.1) hs.2

end Verif.MissionEditor
