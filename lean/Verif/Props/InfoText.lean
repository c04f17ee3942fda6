import Verif.Model.InfoText
import Mathlib.Tactic.Linarith

/-!
# Reading what was printed

The text of a phase info is read back as the value that was printed, but for tuples of one item on one line, and for floats of
numpy since its second version.
-/

namespace Verif.InfoText

mutual
/-- What is read: a tuple of one item that fits on one line is the item; floats of numpy are literals before numpy 2. -/
def norm (numpy2 : Bool) (n : ℕ) : Val → Val
  | .atom (.plain s) => .atom (.plain s)
  | .atom (.npFloat s) => .atom (if numpy2 then .npFloat s else .plain s)
  | .dict es => .dict (normEntries numpy2 n es)
  | .list vs => .list (normVals numpy2 (n + 1) vs)
  | .tuple vs => paren (normVals numpy2 (n + 1) vs)
      (decide (60 < width (.p '(' :: joined (fmtVals numpy2 (n + 1) vs) ++ [.p ')'])))
/-- What is read of items. -/
def normVals (numpy2 : Bool) (n : ℕ) : Vals → Vals
  | .nil => .nil
  | .cons v vs => .cons (norm numpy2 n v) (normVals numpy2 n vs)
/-- What is read of entries. -/
def normEntries (numpy2 : Bool) (n : ℕ) : Entries → Entries
  | .nil => .nil
  | .cons k v es => .cons k (norm numpy2 (n + 1) v) (normEntries numpy2 n es)
end

mutual
/-- A bound of the depth. -/
def cost : Val → ℕ
  | .atom _ => 1
  | .dict es => costEntries es + 1
  | .list vs => costVals vs + 1
  | .tuple vs => costVals vs + 1
/-- Of items. -/
def costVals : Vals → ℕ
  | .nil => 1
  | .cons v vs => cost v + costVals vs + 1
/-- Of entries. -/
def costEntries : Entries → ℕ
  | .nil => 1
  | .cons _ v es => cost v + costEntries es + 1
end

@[simp] theorem strip_nil : strip [] = [] := rfl
@[simp] theorem strip_append (a b : List Tok) : strip (a ++ b) = strip a ++ strip b := List.filter_append ..
@[simp] theorem strip_p (c : Char) (l : List Tok) : strip (.p c :: l) = .p c :: strip l := rfl
@[simp] theorem strip_ws (s : String) (l : List Tok) : strip (.ws s :: l) = strip l := rfl
@[simp] theorem strip_lit (s : String) (l : List Tok) : strip (.lit s :: l) = .lit s :: strip l := rfl
@[simp] theorem strip_np (s : String) (l : List Tok) : strip (.np s :: l) = .np s :: strip l := rfl
@[simp] theorem strip_indent (n : ℕ) (l : List Tok) : strip (indent n :: l) = strip l := rfl

/-- Tokens an expression can start with. -/
def starts : Tok → Bool
  | .p c => c = '{' || c = '[' || c = '('
  | .ws _ => false
  | _ => true

theorem fmt_start (b : Bool) (n : ℕ) (v : Val) : ∃ t l, strip (fmt b n v) = t :: l ∧ starts t = true := by
  cases v with
  | atom a => cases a <;> cases b <;> exact ⟨_, _, rfl, rfl⟩
  | dict es => cases es <;> exact ⟨_, _, by rw [fmt]; rfl, rfl⟩
  | list vs =>
    rw [fmt, sequence]; split_ifs <;> exact ⟨_, _, rfl, rfl⟩
  | tuple vs =>
    rw [fmt, sequence]; split_ifs <;> exact ⟨_, _, rfl, rfl⟩

theorem pVals_close (f : ℕ) (c : Char) (r : List Tok) : pVals (f + 1) c (.p c :: r) = some (.nil, false, r) := by
  rw [pVals]; simp

theorem pVals_step (f : ℕ) {c : Char} (hc : starts (.p c) = false) (b : Bool) (n : ℕ) (v : Val) {w : Val} {d : Char} {r rest : List Tok}
    (h : pVal f (strip (fmt b n v) ++ rest) = some (w, .p d :: r)) :
    pVals (f + 1) c (strip (fmt b n v) ++ rest) =
      if d = ',' then (pVals f c r).map fun x => (.cons w x.1, true, x.2.2)
      else if d = c then some (.cons w .nil, false, r) else none := by
  rw [pVals]
  obtain ⟨t, l, ht, hs⟩ := fmt_start b n v
  rw [if_neg, h]
  rw [ht]
  simp only [List.cons_append, List.head?_cons, Option.some.injEq]
  rintro rfl
  rw [hc] at hs; exact absurd hs (by simp)

theorem joined_cons (a : List Tok) {l : List (List Tok)} (h : l ≠ []) : joined (a :: l) = a ++ .p ',' :: .ws " " :: joined l := by
  cases l with
  | nil => exact absurd rfl h
  | cons b l => rfl

theorem fmtVals_nil_iff (b : Bool) (n : ℕ) (vs : Vals) : fmtVals b n vs = [] ↔ vs = .nil := by
  cases vs <;> simp [fmtVals]

mutual
/-- **Reading an expression**. -/
theorem read_val (b : Bool) : ∀ (v : Val) (n f : ℕ) (r : List Tok), cost v ≤ f →
    pVal f (strip (fmt b n v) ++ r) = some (norm b n v, r)
  | .atom a, n, f, r, h => by
    cases f with
    | zero => simp [cost] at h
    | succ f => cases a <;> cases b <;> simp [fmt, reprAtom, norm, pVal]
  | .dict .nil, n, f, r, h => by
    cases f with
    | zero => simp [cost] at h
    | succ f =>
      cases f with
      | zero => simp [cost, costEntries] at h
      | succ f => simp [fmt, norm, normEntries, pVal, pEntries]
  | .dict (.cons k v es), n, f, r, h => by
    cases f with
    | zero => simp [cost] at h
    | succ f =>
      have := read_entries b (.cons k v es) n f r (by simp [cost] at h; omega)
      simp only [fmt, norm, List.cons_append, strip_p, strip_ws, strip_append, strip_indent, strip_nil, List.append_assoc,
        List.nil_append, pVal, if_true]
      rw [this]; rfl
  | .list vs, n, f, r, h => by
    cases f with
    | zero => simp [cost] at h
    | succ f =>
      have hv := read_vals b vs (n + 1) f ']' rfl (by decide) r (by simp [cost] at h; omega)
      rw [fmt, sequence, norm]
      split_ifs with h1 h2
      · rw [fmtVals_nil_iff] at h1; subst h1
        have := hv.1
        simp only [fmtVals, joined, strip_nil, List.nil_append] at this
        simp [pVal, this]
      · have := hv.1
        simp [pVal, this]
      · have := hv.2 (n + 1)
        simp [pVal, this]
  | .tuple vs, n, f, r, h => by
    cases f with
    | zero => simp [cost] at h
    | succ f =>
      have hv := read_vals b vs (n + 1) f ')' rfl (by decide) r (by simp [cost] at h; omega)
      rw [fmt, sequence, norm]
      split_ifs with h1 h2
      · rw [fmtVals_nil_iff] at h1; subst h1
        have := hv.1
        simp only [fmtVals, joined, strip_nil, List.nil_append] at this
        simp [pVal, this, normVals, paren]
      · have := hv.1
        have hd : decide (60 < width (.p '(' :: joined (fmtVals b (n + 1) vs) ++ [.p ')'])) = false := by simpa using h2
        rw [hd]
        simp only [List.cons_append, strip_p, strip_append, strip_nil, List.append_assoc, List.nil_append, pVal]
        simp only [show ¬ ('(' = '{') by decide, show ¬ ('(' = '[') by decide, if_false, if_true]
        rw [this]
        simp only [Option.map_some]
        cases vs with
        | nil => rfl
        | cons v vs => cases vs <;> rfl
      · have := hv.2 (n + 1)
        have hd : decide (60 < width (.p '(' :: joined (fmtVals b (n + 1) vs) ++ [.p ')'])) = true := by simpa using h2
        rw [hd]
        simp only [List.cons_append, strip_p, strip_ws, strip_indent, strip_append, strip_nil, List.append_assoc, List.nil_append, pVal]
        simp only [show ¬ ('(' = '{') by decide, show ¬ ('(' = '[') by decide, if_false, if_true]
        rw [this]
        simp only [Option.map_some]
        cases vs with
        | nil => simp [fmtVals] at h1
        | cons v vs => cases vs <;> rfl
/-- Reading items, joined by commas or each on its line. -/
theorem read_vals (b : Bool) : ∀ (vs : Vals) (n f : ℕ) (c : Char), starts (.p c) = false → c ≠ ',' → ∀ r : List Tok, costVals vs ≤ f →
    pVals f c (strip (joined (fmtVals b n vs)) ++ .p c :: r) = some (normVals b n vs,
      (match vs with | .cons _ (.cons _ _) => true | _ => false), r) ∧
    ∀ m, pVals f c (strip (lined (indent m) (fmtVals b n vs)) ++ .p c :: r) = some (normVals b n vs,
      (match vs with | .nil => false | _ => true), r)
  | .nil, n, f, c, hc, hn, r, h => by
    cases f with
    | zero => simp [costVals] at h
    | succ f =>
      simp only [fmtVals, joined, lined, strip_nil, List.nil_append, normVals]
      exact ⟨pVals_close f c r, fun _ => pVals_close f c r⟩
  | .cons v vs, n, f, c, hc, hn, r, h => by
    cases f with
    | zero => simp [costVals] at h
    | succ f =>
      simp only [costVals] at h
      have hv := fun rest => read_val b v n f rest (by omega)
      have hvs := read_vals b vs n f c hc hn r (by omega)
      constructor
      · cases vs with
        | nil =>
          simp only [fmtVals, joined]
          rw [pVals_step f hc b n v (hv _), if_neg hn, if_pos rfl]
          rfl
        | cons v' vs' =>
          have hne : fmtVals b n (.cons v' vs') ≠ [] := by simp [fmtVals]
          rw [fmtVals, joined_cons _ hne]
          simp only [strip_append, strip_p, strip_ws, List.append_assoc, List.cons_append]
          rw [pVals_step f hc b n v (hv _), if_pos rfl, hvs.1]
          rfl
      · intro m
        rw [fmtVals, lined]
        simp only [List.cons_append, strip_indent, strip_append, strip_p, strip_ws, List.append_assoc]
        rw [pVals_step f hc b n v (hv _), if_pos rfl, hvs.2 m]
        rfl
/-- Reading entries. -/
theorem read_entries (b : Bool) : ∀ (es : Entries) (n f : ℕ) (r : List Tok), costEntries es ≤ f →
    pEntries f (strip (fmtEntries b n es) ++ .p '}' :: r) = some (normEntries b n es, r)
  | .nil, n, f, r, h => by
    cases f with
    | zero => simp [costEntries] at h
    | succ f => simp [fmtEntries, normEntries, pEntries]
  | .cons k v es, n, f, r, h => by
    cases f with
    | zero => simp [costEntries] at h
    | succ f =>
      simp only [costEntries] at h
      have hv := fun rest => read_val b v (n + 1) f rest (by omega)
      have hes := read_entries b es n f r (by omega)
      rw [fmtEntries]
      simp only [List.cons_append, strip_indent, strip_lit, strip_append, strip_p, strip_ws, List.append_assoc, pEntries, if_true]
      rw [hv]
      simp only [if_true]
      rw [hes]
      rfl
end

mutual
/-- The text is at least half as long as the depth needs. -/
theorem cost_le (b : Bool) : ∀ (v : Val) (n : ℕ), cost v ≤ 2 * (fmt b n v).length
  | .atom _, n => by simp [cost, fmt]
  | .dict .nil, n => by simp [cost, costEntries, fmt]
  | .dict (.cons k v es), n => by
    have := costEntries_le b (.cons k v es) n
    simp [cost, fmt]; omega
  | .list vs, n => by
    have := costVals_le b vs (n + 1)
    rw [cost, fmt, sequence]
    split_ifs with h1 h2
    · rw [fmtVals_nil_iff] at h1; subst h1; simp [costVals]
    · have := this.1; simp; omega
    · have := this.2 (indent (n + 1)); simp; omega
  | .tuple vs, n => by
    have := costVals_le b vs (n + 1)
    rw [cost, fmt, sequence]
    split_ifs with h1 h2
    · rw [fmtVals_nil_iff] at h1; subst h1; simp [costVals]
    · have := this.1; simp; omega
    · have := this.2 (indent (n + 1)); simp; omega
theorem costVals_le (b : Bool) : ∀ (vs : Vals) (n : ℕ), costVals vs ≤ 2 * (joined (fmtVals b n vs)).length + 3 ∧
    ∀ t, costVals vs ≤ 2 * (lined t (fmtVals b n vs)).length + 3
  | .nil, n => by simp [costVals]
  | .cons v vs, n => by
    have h1 := cost_le b v n
    have h2 := costVals_le b vs n
    constructor
    · have := h2.1
      cases vs with
      | nil => simp [costVals, fmtVals, joined]; omega
      | cons v' vs' =>
        rw [fmtVals, joined_cons _ (by simp [fmtVals]), costVals]
        simp only [List.length_append, List.length_cons]; omega
    · intro t
      have := h2.2 t
      rw [fmtVals, lined, costVals]
      simp only [List.length_append, List.length_cons]; omega
theorem costEntries_le (b : Bool) : ∀ (es : Entries) (n : ℕ), costEntries es ≤ 2 * (fmtEntries b n es).length + 1
  | .nil, n => by simp [costEntries]
  | .cons k v es, n => by
    have h1 := cost_le b v (n + 1)
    have h2 := costEntries_le b es n
    simp [costEntries, fmtEntries]; omega
end

/-- **The file is read**, as `norm` says, or raises because it uses a name that is not imported. -/
theorem exec_fmt (b : Bool) (v : Val) :
    exec (fmt b 0 v) = if usesNp (norm b 0 v) then .error .nameError else .ok (norm b 0 v) := by
  have := read_val b v 0 (2 * (fmt b 0 v).length + 1) [] (by have := cost_le b v 0; omega)
  rw [List.append_nil] at this
  unfold exec
  rw [this]

mutual
/-- No tuple has exactly one item. -/
def noSingle : Val → Bool
  | .atom _ => true
  | .dict es => noSingleEntries es
  | .list vs => noSingleVals vs
  | .tuple (.cons _ .nil) => false
  | .tuple vs => noSingleVals vs
/-- In items. -/
def noSingleVals : Vals → Bool
  | .nil => true
  | .cons v vs => noSingle v && noSingleVals vs
/-- In entries. -/
def noSingleEntries : Entries → Bool
  | .nil => true
  | .cons _ v es => noSingle v && noSingleEntries es
end

mutual
/-- The value with floats of python in place of floats of numpy. -/
def python : Val → Val
  | .atom (.plain s) => .atom (.plain s)
  | .atom (.npFloat s) => .atom (.plain s)
  | .dict es => .dict (pythonEntries es)
  | .list vs => .list (pythonVals vs)
  | .tuple vs => .tuple (pythonVals vs)
/-- Of items. -/
def pythonVals : Vals → Vals
  | .nil => .nil
  | .cons v vs => .cons (python v) (pythonVals vs)
/-- Of entries. -/
def pythonEntries : Entries → Entries
  | .nil => .nil
  | .cons k v es => .cons k (python v) (pythonEntries es)
end

theorem paren_eq {vs : Vals} (b : Bool) (h : ∀ v, vs ≠ .cons v .nil) : paren vs b = .tuple vs := by
  cases vs with
  | nil => rfl
  | cons v vs => cases vs with
    | nil => exact absurd rfl (h v)
    | cons v' vs => rfl

theorem noSingle_tuple {vs : Vals} (h : noSingle (.tuple vs) = true) : noSingleVals vs = true ∧ ∀ v, vs ≠ .cons v .nil := by
  cases vs with
  | nil => exact ⟨rfl, by simp⟩
  | cons v vs => cases vs with
    | nil => simp [noSingle] at h
    | cons v' vs => exact ⟨by simpa [noSingle] using h, by simp⟩

mutual
theorem norm_true : ∀ (v : Val) (n : ℕ), noSingle v = true → norm true n v = v
  | .atom (.plain _), _, _ => by simp [norm]
  | .atom (.npFloat _), _, _ => by simp [norm]
  | .dict es, n, h => by rw [norm, normEntries_true es n (by simpa [noSingle] using h)]
  | .list vs, n, h => by rw [norm, normVals_true vs _ (by simpa [noSingle] using h)]
  | .tuple vs, n, h => by
    have h' := noSingle_tuple h
    rw [norm, normVals_true vs _ h'.1, paren_eq _ h'.2]
theorem normVals_true : ∀ (vs : Vals) (n : ℕ), noSingleVals vs = true → normVals true n vs = vs
  | .nil, _, _ => rfl
  | .cons v vs, n, h => by
    simp only [noSingleVals, Bool.and_eq_true] at h
    rw [normVals, norm_true v n h.1, normVals_true vs n h.2]
theorem normEntries_true : ∀ (es : Entries) (n : ℕ), noSingleEntries es = true → normEntries true n es = es
  | .nil, _, _ => rfl
  | .cons k v es, n, h => by
    simp only [noSingleEntries, Bool.and_eq_true] at h
    rw [normEntries, norm_true v _ h.1, normEntries_true es n h.2]
end

mutual
theorem norm_false : ∀ (v : Val) (n : ℕ), noSingle v = true → norm false n v = python v
  | .atom (.plain _), _, _ => by simp [norm, python]
  | .atom (.npFloat _), _, _ => by simp [norm, python]
  | .dict es, n, h => by rw [norm, normEntries_false es n (by simpa [noSingle] using h), python]
  | .list vs, n, h => by rw [norm, normVals_false vs _ (by simpa [noSingle] using h), python]
  | .tuple vs, n, h => by
    have h' := noSingle_tuple h
    rw [norm, normVals_false vs _ h'.1, paren_eq _ _, python]
    intro v hv
    cases vs with
    | nil => simp [pythonVals] at hv
    | cons w vs => cases vs with
      | nil => exact h'.2 w rfl
      | cons w' vs => simp [pythonVals] at hv
theorem normVals_false : ∀ (vs : Vals) (n : ℕ), noSingleVals vs = true → normVals false n vs = pythonVals vs
  | .nil, _, _ => rfl
  | .cons v vs, n, h => by
    simp only [noSingleVals, Bool.and_eq_true] at h
    rw [normVals, norm_false v n h.1, normVals_false vs n h.2, pythonVals]
theorem normEntries_false : ∀ (es : Entries) (n : ℕ), noSingleEntries es = true → normEntries false n es = pythonEntries es
  | .nil, _, _ => rfl
  | .cons k v es, n, h => by
    simp only [noSingleEntries, Bool.and_eq_true] at h
    rw [normEntries, norm_false v _ h.1, normEntries_false es n h.2, pythonEntries]
end

mutual
theorem python_usesNp : ∀ v : Val, usesNp (python v) = false
  | .atom (.plain _) => rfl
  | .atom (.npFloat _) => rfl
  | .dict es => by rw [python, usesNp, pythonEntries_useNp]
  | .list vs => by rw [python, usesNp, pythonVals_useNp]
  | .tuple vs => by rw [python, usesNp, pythonVals_useNp]
theorem pythonVals_useNp : ∀ vs : Vals, valsUseNp (pythonVals vs) = false
  | .nil => rfl
  | .cons v vs => by rw [pythonVals, valsUseNp, python_usesNp, pythonVals_useNp]; rfl
theorem pythonEntries_useNp : ∀ es : Entries, entriesUseNp (pythonEntries es) = false
  | .nil => rfl
  | .cons k v es => by rw [pythonEntries, entriesUseNp, python_usesNp, pythonEntries_useNp]; rfl
end

/-- **Round trip before numpy 2**: a value without tuples of one item is read as it was, with floats of python. -/
theorem read_numpy1 {v : Val} (h : noSingle v = true) : exec (fmt false 0 v) = .ok (python v) := by
  rw [exec_fmt, norm_false v 0 h, python_usesNp]; rfl

/-- Since numpy 2 it is read as it was if it has no floats of numpy, and otherwise raises. -/
theorem read_numpy2 {v : Val} (h : noSingle v = true) :
    exec (fmt true 0 v) = if usesNp v then .error .nameError else .ok v := by
  rw [exec_fmt, norm_true v 0 h]

/-- A tuple of one item that fits on one line is read as the item. -/
theorem single_violated (b : Bool) {s : String} (h : s.length ≤ 58) :
    exec (fmt b 0 (.tuple (.cons (.atom (.plain s)) .nil))) = .ok (.atom (.plain s)) := by
  rw [exec_fmt]
  have hd : decide (60 < width (.p '(' :: joined (fmtVals b 1 (.cons (.atom (.plain s)) .nil)) ++ [.p ')'])) = false := by
    simp only [fmtVals, fmt, reprAtom, joined, width]
    simp [Tok.width]; omega
  have : norm b 0 (.tuple (.cons (.atom (.plain s)) .nil)) = .atom (.plain s) := by
    rw [norm, show 0 + 1 = 1 from rfl, hd]; rfl
  rw [this]; rfl

/-! ## The file of a mission -/

theorem entries_noSingle : ∀ l : List (String × Val), (∀ x ∈ l, noSingle x.2 = true) → noSingleEntries (entries l) = true
  | [], _ => rfl
  | (k, v) :: l, h => by
    rw [entries, noSingleEntries, h (k, v) (by simp), entries_noSingle l fun x hx => h x (by simp [hx])]; rfl

theorem phaseVal_noSingle (num : ℚ → String) (first : Bool) (p : MissionEditor.PhaseInfo) : noSingle (phaseVal num first p) = true := by
  cases first <;> rfl

theorem phaseEntries_noSingle (num : ℚ → String) : ∀ (l : List ((MissionEditor.Kind × ℕ) × MissionEditor.PhaseInfo)) (first : Bool),
    ∀ x ∈ phaseEntries num first l, noSingle x.2 = true
  | [], _, x, hx => by simp [phaseEntries] at hx
  | ((k, i), p) :: l, first, x, hx => by
    rw [phaseEntries] at hx
    rcases List.mem_cons.1 hx with rfl | hx
    · exact phaseVal_noSingle num first p
    · exact phaseEntries_noSingle num l false x hx

/-- The dictionary of a mission has no tuple of one item. -/
theorem info_noSingle (num : ℚ → String) (r : MissionEditor.Info) : noSingle (infoVal num r) = true := by
  rw [infoVal, noSingle]
  refine entries_noSingle _ fun x hx => ?_
  simp only [List.cons_append, List.mem_cons, List.mem_append, List.not_mem_nil, or_false] at hx
  rcases hx with rfl | hx | rfl
  · rfl
  · exact phaseEntries_noSingle num _ _ x hx
  · rfl

theorem entries_useNp : ∀ (l : List (String × Val)) {k : String} {v : Val}, (k, v) ∈ l → usesNp v = true → entriesUseNp (entries l) = true
  | (k', v') :: l, k, v, h, hv => by
    rw [entries, entriesUseNp]
    rcases List.mem_cons.1 h with h | h
    · cases h; rw [hv]; rfl
    · rw [entries_useNp l h hv, Bool.or_true]

/-- It has a float of numpy, the range. -/
theorem info_usesNp (num : ℚ → String) (r : MissionEditor.Info) : usesNp (infoVal num r) = true := by
  rw [infoVal, usesNp]
  exact entries_useNp _ (List.mem_append_right _ (List.mem_singleton.2 rfl)) rfl

/-- **Files of missions before numpy 2** are read as they were written. -/
theorem file_numpy1 (num : ℚ → String) (r : MissionEditor.Info) :
    exec (fmt false 0 (infoVal num r)) = .ok (python (infoVal num r)) := read_numpy1 (info_noSingle num r)

/-- Since numpy 2 no mission that was saved can be read: the file uses `np` and does not import it. -/
theorem file_numpy2_violated (num : ℚ → String) (r : MissionEditor.Info) :
    exec (fmt true 0 (infoVal num r)) = .error .nameError := by
  rw [read_numpy2 (info_noSingle num r), info_usesNp]; rfl

/-! ## Examples -/

example : fmt false 0 (.tuple (.cons (.atom (.npFloat "0.3")) (.cons (.atom (.plain "'unitless'")) .nil))) =
    [.p '(', .lit "0.3", .p ',', .ws " ", .lit "'unitless'", .p ')'] := by decide +kernel

example : exec (fmt true 0 (.dict (.cons "'a'" (.list (.cons (.atom (.plain "1")) .nil)) .nil))) =
    .ok (.dict (.cons "'a'" (.list (.cons (.atom (.plain "1")) .nil)) .nil)) := read_numpy2 rfl

end Verif.InfoText
