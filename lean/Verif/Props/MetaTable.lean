import Verif.Model.UnitDims
import Mathlib.Tactic.Ring
import Mathlib.Tactic.Tauto
import Mathlib.Data.List.Nodup

/-!
# Theorems about the metadata of the core variables

The table is finite and complete, so statements about all variables are decided by the kernel.
-/

namespace Verif.MetaTable
set_option maxRecDepth 100000

/-! ## C114 -/

theorem mulPow_assoc (a b c : Dim) (n : Int) : (a.mulPow 1 b).mulPow n c = a.mulPow 1 (b.mulPow n c) := by
  simp only [Dim.mulPow, Dim.mk.injEq]; refine ⟨?_, ?_, ?_, ?_, ?_⟩ <;> ring

/-- The factors before a unit expression multiply its value. -/
theorem evalToks_mul (a d : Dim) (sg : Int) (ts : List Tok) :
    evalToks (a.mulPow 1 d) sg ts = (evalToks d sg ts).map (fun e => a.mulPow 1 e) := by
  fun_induction evalToks d sg ts with
  | case1 d sg s =>
    simp only [evalToks]
    cases base s with
    | none => rfl
    | some e => simp only [Option.map_some, mulPow_assoc]
  | case2 d sg s n e k h1 h2 => simp only [evalToks, h1, h2, Option.map_some, mulPow_assoc]
  | case3 d sg s n hn =>
    simp only [evalToks]; rfl
  | case4 d sg s n r e k h1 h2 ih => simp only [evalToks, h1, h2, mulPow_assoc, ih]
  | case5 d sg s n r hn =>
    simp only [evalToks]; rfl
  | case6 d sg s n r e k h1 h2 ih => simp only [evalToks, h1, h2, mulPow_assoc, ih]
  | case7 d sg s n r hn =>
    simp only [evalToks]; rfl
  | case8 d sg s r e h1 ih => simp only [evalToks, h1, mulPow_assoc, ih]
  | case9 d sg s r h1 => simp only [evalToks, h1, Option.map_none]
  | case10 d sg s r e h1 ih => simp only [evalToks, h1, mulPow_assoc, ih]
  | case11 d sg s r h1 => simp only [evalToks, h1, Option.map_none]
  | case12 d sg ts h1 h2 h3 h4 h5 h6 => 
    rw [evalToks.eq_def]
    split <;> simp_all

example : dims t!"lbf*s/ft**2" = some ⟨1, -1, -1, 0, 0⟩ := by decide +kernel

/-- Units of every core variable are understood. -/
theorem units_parse : ∀ r ∈ table, (dims r.units).isSome = true := by decide +kernel

/-- Texts as numbers, to compare them quickly. -/
def code (t : Text) : ℕ := t.foldl (fun a c => (a * 131 + c) % 18446744073709551557) 7

/-- Numbers in a tree ordered by their binary digits from the lowest one. -/
inductive Trie | leaf | node (k : ℕ) (l r : Trie)

/-- The numbers in a tree. -/
def Trie.keys : Trie → List ℕ
  | .leaf => []
  | .node k l r => k :: (l.keys ++ r.keys)

/-- Insert a number that is not there; `h` holds the digits not yet used. -/
def Trie.insert (k : ℕ) : ℕ → Trie → Option Trie
  | _, .leaf => some (.node k .leaf .leaf)
  | h, .node k' l r =>
    if k = k' then none
    else if h % 2 = 0 then (l.insert k (h / 2)).map (fun l' => .node k' l' r)
    else (r.insert k (h / 2)).map (fun r' => .node k' l r')

/-- The digits of the numbers below a node lead to them. -/
def Trie.WF : ℕ → Trie → Prop
  | _, .leaf => True
  | i, .node _ l r => (∀ x ∈ l.keys, (x / 2 ^ i) % 2 = 0) ∧ (∀ x ∈ r.keys, (x / 2 ^ i) % 2 ≠ 0) ∧ l.WF (i + 1) ∧ r.WF (i + 1)

theorem insert_spec (k : ℕ) (t : Trie) : ∀ i t', t.WF i → t.insert k (k / 2 ^ i) = some t' →
    k ∉ t.keys ∧ t'.WF i ∧ ∀ x, x ∈ t'.keys ↔ x = k ∨ x ∈ t.keys := by
  induction t with
  | leaf =>
    intro i t' _ h
    simp only [Trie.insert, Option.some.injEq] at h
    subst h; simp [Trie.keys, Trie.WF]
  | node k' l r ihl ihr =>
    intro i t' hw h
    obtain ⟨w1, w2, w3, w4⟩ := hw
    have e : k / 2 ^ i / 2 = k / 2 ^ (i + 1) := by rw [Nat.div_div_eq_div_mul, Nat.pow_succ]
    simp only [Trie.insert, e] at h
    split at h
    · simp at h
    · rename_i hk
      split at h
      · rename_i hb
        cases hl : l.insert k (k / 2 ^ (i + 1)) with
        | none => rw [hl] at h; simp at h
        | some l' =>
          rw [hl] at h
          simp only [Option.map_some, Option.some.injEq] at h
          subst h
          obtain ⟨a, b, c⟩ := ihl (i + 1) l' w3 hl
          refine ⟨?_, ⟨?_, w2, b, w4⟩, ?_⟩
          · simp only [Trie.keys, List.mem_cons, List.mem_append, not_or]
            exact ⟨hk, a, fun hr => w2 k hr hb⟩
          · intro x hx
            rcases (c x).1 hx with rfl | hx
            · exact hb
            · exact w1 x hx
          · intro x; simp only [Trie.keys, List.mem_cons, List.mem_append, c x]; tauto
      · rename_i hb
        cases hr : r.insert k (k / 2 ^ (i + 1)) with
        | none => rw [hr] at h; simp at h
        | some r' =>
          rw [hr] at h
          simp only [Option.map_some, Option.some.injEq] at h
          subst h
          obtain ⟨a, b, c⟩ := ihr (i + 1) r' w4 hr
          refine ⟨?_, ⟨w1, ?_, w3, b⟩, ?_⟩
          · simp only [Trie.keys, List.mem_cons, List.mem_append, not_or]
            exact ⟨hk, fun hl => hb (w1 k hl), a⟩
          · intro x hx
            rcases (c x).1 hx with rfl | hx
            · exact hb
            · exact w2 x hx
          · intro x; simp only [Trie.keys, List.mem_cons, List.mem_append, c x]; tauto

/-- Insert a list. -/
def Trie.insertAll : Trie → List ℕ → Bool
  | _, [] => true
  | t, k :: ks => match t.insert k k with
    | some t' => t'.insertAll ks
    | none => false

theorem insertAll_spec (ks : List ℕ) : ∀ t : Trie, t.WF 0 → t.insertAll ks = true → ks.Nodup ∧ ∀ k ∈ ks, k ∉ t.keys := by
  induction ks with
  | nil => intro t _ _; simp
  | cons k ks ih =>
    intro t hw h
    simp only [Trie.insertAll] at h
    cases e : t.insert k k with
    | none => rw [e] at h; simp at h
    | some t' =>
      rw [e] at h
      obtain ⟨a, b, c⟩ := insert_spec k t 0 t' hw (by simpa using e)
      obtain ⟨n, m⟩ := ih t' b h
      refine ⟨List.nodup_cons.2 ⟨fun hk => m k hk ((c k).2 (Or.inl rfl)), n⟩, ?_⟩
      intro x hx
      rcases List.mem_cons.1 hx with rfl | hx
      · exact a
      · exact fun hx' => m x hx ((c x).2 (Or.inr hx'))

/-- No variable has two entries. -/
theorem names_nodup : (table.map (·.name)).Nodup := by
  have h : Trie.leaf.insertAll ((table.map (·.name)).map code) = true := by decide +kernel
  exact ((insertAll_spec _ .leaf trivial h).1).of_map _

/-- Every variable of the hierarchy has an entry and no entry is for anything else. -/
theorem names_complete : (∀ v ∈ vars, v ∈ table.map (·.name)) ∧ ∀ r ∈ table, r.name ∈ vars := by
  have h : table.map (·.name) = vars := by decide +kernel
  exact ⟨fun v hv => h ▸ hv, fun r hr => h ▸ List.mem_map.2 ⟨r, hr, rfl⟩⟩

/-- A default value has the declared type, is an integer for a float, or is absent; without a declared type it is a number (so the
type becomes float). -/
theorem default_typed : ∀ r ∈ table,
    (r.ty = .missing → r.dflt = .float ∨ r.dflt = .int) ∧
    (r.ty ≠ .missing → r.ty ≠ .any → r.dflt = r.ty ∨ r.dflt = .missing ∨ (r.ty = .float ∧ r.dflt = .int)) := by
  decide +kernel

/-- Only quantities that are options (the number of bays apart) have a type other than float, and those have no units. -/
theorem typed_unitless : ∀ r ∈ table, (r.ty = .bool ∨ r.ty = .str ∨ r.ty = .enum ∨ r.ty = .int) →
    dims r.units = some .one ∧ (r.option = true ∨ r.name = t!"aircraft:blended_wing_body_design:num_bays") := by
  decide +kernel

/-- Dimension the last word of a name announces.  A name with the word "to" is a ratio; per unit something and specific quantities are left open. -/
def expected (w : List Text) : Option Dim :=
  if t!"to" ∈ w then some .one
  else if t!"per" ∈ w ∨ t!"specific" ∈ w then none
  else match w.getLast? with
    | none => none
    | some l =>
      if l = t!"mass" then some ⟨1, 0, 0, 0, 0⟩
      else if l = t!"area" then some ⟨0, 2, 0, 0, 0⟩
      else if l = t!"volume" then some ⟨0, 3, 0, 0, 0⟩
      else if l ∈ [t!"scaler", t!"factor", t!"fraction", t!"ratio", t!"coefficient", t!"efficiency", t!"mach", t!"fineness"] then
        some .one
      else if l ∈ [t!"length", t!"width", t!"span", t!"diameter", t!"height", t!"altitude", t!"thickness"] then
        some ⟨0, 1, 0, 0, 0⟩
      else if l ∈ [t!"sweep", t!"angle", t!"dihedral", t!"incidence"] then some ⟨0, 0, 0, 0, 1⟩
      else if l ∈ [t!"velocity", t!"speed"] then some ⟨0, 1, -1, 0, 0⟩
      else if l = t!"pressure" then some ⟨1, -1, -2, 0, 0⟩
      else if l ∈ [t!"thrust", t!"lift"] then some ⟨1, 1, -2, 0, 0⟩
      else if l = t!"torque" then some ⟨1, 2, -2, 0, 0⟩
      else if l ∈ [t!"temperature"] then some ⟨0, 0, 0, 1, 0⟩
      else if l ∈ [t!"duration", t!"time"] then some ⟨0, 0, 1, 0, 0⟩
      else if l ∈ [t!"loading"] then some ⟨1, -1, -2, 0, 0⟩
      else none

/-- Units agree with the word that ends the name, flags and one exception apart. -/
theorem units_of_word_partial : ∀ r ∈ table, r.ty ≠ .bool → r.name ≠ t!"aircraft:battery:volume" →
    ∀ d, expected (words r.name) = some d → dims r.units = some d := by
  have h : ∀ r ∈ table, r.ty ≠ .bool → r.name ≠ t!"aircraft:battery:volume" →
      expected (words r.name) = none ∨ dims r.units = expected (words r.name) := by decide +kernel
  intro r hr hb hn d hd
  rcases h r hr hb hn with e | e
  · rw [e] at hd; simp at hd
  · rw [e, hd]

/-- The exception: the volume of the battery has the dimension of a length, so no volume can be stored in it. -/
theorem battery_volume_violated : ∃ r ∈ table, r.name = t!"aircraft:battery:volume" ∧ dims r.units = some ⟨0, 1, 0, 0, 0⟩ ∧
    ∀ u ∈ [t!"ft**3", t!"m**3", t!"L", t!"galUS"], dims u ≠ dims r.units :=
  ⟨⟨t!"aircraft:battery:volume", t!"ft*3", .missing, .float, false, false⟩, by decide +kernel, rfl, by decide +kernel,
    by decide +kernel⟩

/-- The name of the quantity whose rate, total, extreme or negative a name denotes. -/
def stem (suf : Text) (n : Text) : Option Text :=
  if suf.isSuffixOf n then some (n.take (n.length - suf.length)) else none

/-- Units of a variable of the table. -/
def unitsOf (n : Text) : Option Text := (table.find? (fun r => r.name == n)).map (·.units)

/-- Totals, extremes, negatives and additional parts have the dimension of the quantity itself. -/
theorem same_dimension : ∀ suf ∈ [t!"_total", t!"_max", t!"_min", t!"_negative", t!"_additional"], ∀ r ∈ table, ∀ b u,
    stem suf r.name = some b → unitsOf b = some u → dims r.units = dims u := by
  have h : ∀ suf ∈ [t!"_total", t!"_max", t!"_min", t!"_negative", t!"_additional"], ∀ r ∈ table,
      ((stem suf r.name).bind unitsOf).all (fun u => decide (dims r.units = dims u)) = true := by decide +kernel
  intro suf hs r hr b u h1 h2
  have := h suf hs r hr
  rw [h1, Option.bind_some, h2] at this
  simpa using this

/-- A rate has the dimension of the quantity over time, for all but the Mach number and the specific energy. -/
theorem rate_dimension_partial : ∀ r ∈ table, r.name ≠ t!"mach_rate" → r.name ≠ t!"specific_energy_rate" → ∀ b u,
    stem t!"_rate" r.name = some b → unitsOf b = some u → dims r.units = (dims u).map (fun d => d.mulPow (-1) ⟨0, 0, 1, 0, 0⟩) := by
  have h : ∀ r ∈ table, r.name ≠ t!"mach_rate" → r.name ≠ t!"specific_energy_rate" →
      ((stem t!"_rate" r.name).bind unitsOf).all
        (fun u => decide (dims r.units = (dims u).map (fun d => d.mulPow (-1) ⟨0, 0, 1, 0, 0⟩))) = true := by decide +kernel
  intro r hr n1 n2 b u h1 h2
  have := h r hr n1 n2
  rw [h1, Option.bind_some, h2] at this
  simpa using this

/-- The two exceptions: their rates have the units of the quantity, and the specific energy those of a velocity. -/
theorem rate_dimension_violated :
    (unitsOf t!"mach" = some t!"unitless" ∧ unitsOf t!"mach_rate" = some t!"unitless") ∧
    (unitsOf t!"specific_energy" = some t!"m/s" ∧ unitsOf t!"specific_energy_rate" = some t!"m/s") := by
  decide +kernel

example : unitsOf t!"altitude" = some t!"ft" ∧ unitsOf t!"altitude_rate" = some t!"ft/s" := by decide +kernel

/-! ## Unit expressions and names -/

/-- A factor of a unit expression: a unit, and its power if one is written. -/
abbrev Factor := Text × Option ℕ

/-- The tokens of a factor. -/
def factorToks (f : Factor) : List Tok :=
  .atom f.1 :: match f.2 with
    | none => []
    | some k => [.pow, .atom [48 + k]]

/-- The tokens of a product of factors; `true` divides. -/
def exprToks : Factor → List (Bool × Factor) → List Tok
  | f, [] => factorToks f
  | f, (inv, g) :: r => factorToks f ++ (if inv then Tok.div else Tok.mul) :: exprToks g r

/-- The power of a factor, negative below a slash. -/
def signedPow (inv : Bool) (f : Factor) : Int := (if inv then -1 else 1) * ((f.2.getD 1 : ℕ) : Int)

theorem digit_spec (k : ℕ) (h : k ≤ 9) : digit [48 + k] = some (k : Int) := by
  have h1 : 48 ≤ 48 + k ∧ 48 + k ≤ 57 := ⟨by omega, by omega⟩
  simp only [digit, if_pos h1]
  congr 1
  omega

theorem digit_digits (t : Text) (k : Int) (h : digit t = some k) : ∃ n : ℕ, n ≤ 9 ∧ t = [48 + n] ∧ k = n := by
  match t, h with
  | [c], h =>
    simp only [digit] at h
    split at h
    · rename_i hc
      refine ⟨c - 48, by omega, ?_, by simpa using h.symm⟩
      congr 1; omega
    · cases h

/-- The value of a product is the product of the powers, each with its own sign. -/
theorem evalToks_expr (val : Text → Dim) (d : Dim) (inv : Bool) (f : Factor) (r : List (Bool × Factor))
    (hb : ∀ g ∈ (inv, f) :: r, base g.2.1 = some (val g.2.1) ∧ ∀ k, g.2.2 = some k → k ≤ 9) :
    evalToks d (if inv then -1 else 1) (exprToks f r) =
      some (((inv, f) :: r).foldl (fun e g => e.mulPow (signedPow g.1 g.2) (val g.2.1)) d) := by
  induction r generalizing d inv f with
  | nil =>
    obtain ⟨a, p⟩ := f
    obtain ⟨h1, h2⟩ := hb (inv, a, p) (by simp)
    cases p with
    | none => simp only [exprToks, factorToks, evalToks, h1]; simp [signedPow]
    | some k => simp only [exprToks, factorToks, evalToks, h1, digit_spec k (h2 k rfl)]; simp [signedPow]
  | cons g r ih =>
    obtain ⟨i, g⟩ := g
    obtain ⟨a, p⟩ := f
    obtain ⟨h1, h2⟩ := hb _ (List.mem_cons_self ..)
    have ih' := fun d => ih d i g (fun x hx => hb x (List.mem_cons_of_mem _ hx))
    cases i <;> cases p with
    | none => simp [exprToks, factorToks, evalToks, h1, signedPow] at ih' ⊢; rw [ih']
    | some k => simp [exprToks, factorToks, evalToks, h1, digit_spec k (h2 k rfl), signedPow] at ih' ⊢; rw [ih']

example : exprToks (t!"lbm", none) [(true, t!"ft", some 3)] = tokens [] t!"lbm/ft**3" := by decide

theorem splitAt_ne (c : ℕ) (cur l : Text) : splitAt c cur l ≠ [] := by
  induction l generalizing cur with
  | nil => simp [splitAt]
  | cons x r ih =>
    rw [splitAt]
    split
    · simp
    · exact ih _

/-- Splitting loses nothing. -/
theorem splitAt_join (c : ℕ) (cur l : Text) : [c].intercalate (splitAt c cur l) = cur ++ l := by
  induction l generalizing cur with
  | nil => simp [splitAt, List.intercalate]
  | cons x r ih =>
    rw [splitAt]
    split
    · rename_i h
      subst h
      have hne : splitAt x [] r ≠ [] := splitAt_ne x [] r
      obtain ⟨a, t, ht⟩ := List.exists_cons_of_ne_nil hne
      have := ih []
      rw [ht] at this ⊢
      simp only [List.intercalate, List.intersperse, List.flatten_cons, List.nil_append] at this ⊢
      rw [this]
      simp
    · rw [ih]; simp

/-- The pieces do not contain the separator. -/
theorem splitAt_free (c : ℕ) (cur l : Text) (h : c ∉ cur) : ∀ p ∈ splitAt c cur l, c ∉ p := by
  induction l generalizing cur with
  | nil => simpa [splitAt] using h
  | cons x r ih =>
    rw [splitAt]
    split
    · intro p hp
      rcases List.mem_cons.1 hp with rfl | hp
      · exact h
      · exact ih [] (by simp) p hp
    · rename_i hx
      refine ih _ ?_
      simp only [List.mem_append, List.mem_singleton, not_or]
      exact ⟨h, fun e => hx e.symm⟩

theorem splitAt_last (c : ℕ) (cur l : Text) :
    ∃ pre, cur ++ l = pre ++ (splitAt c cur l).getLast?.getD [] ∧ (pre = [] ∨ ∃ q, pre = q ++ [c]) := by
  induction l generalizing cur with
  | nil => exact ⟨[], by simp [splitAt], Or.inl rfl⟩
  | cons x r ih =>
    rw [splitAt]
    split
    · rename_i h
      subst h
      have hne : splitAt x [] r ≠ [] := splitAt_ne x [] r
      obtain ⟨a, t, ht⟩ := List.exists_cons_of_ne_nil hne
      obtain ⟨pre, h1, h2⟩ := ih []
      rw [ht] at h1 ⊢
      rw [List.getLast?_cons_cons]
      rw [List.nil_append] at h1
      refine ⟨cur ++ [x] ++ pre, by rw [List.append_assoc, ← h1]; simp, Or.inr ?_⟩
      rcases h2 with rfl | ⟨q, rfl⟩
      · exact ⟨cur, by simp⟩
      · exact ⟨cur ++ [x] ++ q, by simp⟩
    · obtain ⟨pre, h1, h2⟩ := ih (cur ++ [x])
      exact ⟨pre, by rw [← h1]; simp, h2⟩

/-- The words of a name are the parts between underscores of what follows the last colon. -/
theorem words_spec (n : Text) : (∃ pre, n = pre ++ [95].intercalate (words n) ∧ (pre = [] ∨ ∃ q, pre = q ++ [58])) ∧
    ∀ w ∈ words n, 95 ∉ w := by
  constructor
  · obtain ⟨pre, h1, h2⟩ := splitAt_last 58 [] n
    refine ⟨pre, ?_, h2⟩
    rw [words, splitAt_join]
    simpa using h1
  · exact splitAt_free 95 [] _ (by simp)

/-- And no word has a colon. -/
theorem words_no_colon (n : Text) : ∀ w ∈ words n, 58 ∉ w := by
  have h : 58 ∉ (splitAt 58 [] n).getLast?.getD [] := by
    cases hl : (splitAt 58 [] n).getLast? with
    | none => simp
    | some p => exact splitAt_free 58 [] n (by simp) p (List.mem_of_getLast? hl)
  intro w hw hc
  apply h
  have := splitAt_join 95 [] ((splitAt 58 [] n).getLast?.getD [])
  rw [List.nil_append] at this
  rw [← this]
  have key : ∀ L : List Text, w ∈ L → 58 ∈ [95].intercalate L := by
    intro L
    induction L with
    | nil => intro h; cases h
    | cons a t ih =>
      intro hm
      cases t with
      | nil => simp at hm; subst hm; simpa [List.intercalate] using hc
      | cons b t =>
        simp only [List.intercalate, List.intersperse, List.flatten_cons, List.mem_append] at ih ⊢
        rcases List.mem_cons.1 hm with rfl | hm
        · exact Or.inl hc
        · exact Or.inr (Or.inr (ih hm))
  exact key _ hw

end Verif.MetaTable
