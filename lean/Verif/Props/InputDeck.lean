import Verif.Model.InputDeck
import Verif.Lemmas.Dict
import Verif.Props.AviaryValues
import Mathlib.Tactic.NormNum
import Mathlib.Tactic.Set

/-! # C10, C29, C32: input decks -/

namespace Verif

/-! ## C10: tokenisation -/

theorem splitComma_ne_nil (s : Txt) : splitComma s ≠ [] := by
  cases s with
  | nil => simp [splitComma]
  | cons c cs =>
    simp only [splitComma]
    split
    · simp
    · cases h : splitComma cs <;> simp

theorem splitComma_cell (w : Txt) (hw : ',' ∉ w) (rest : Txt) :
    splitComma (w ++ ',' :: rest) = w :: splitComma rest ∧ splitComma w = [w] := by
  induction w with
  | nil => simp [splitComma]
  | cons c cs ih =>
    have hc : c ≠ ',' := fun e => hw (by simp [e])
    have hcs : ',' ∉ cs := fun e => hw (List.mem_cons_of_mem _ e)
    obtain ⟨h1, h2⟩ := ih hcs
    constructor
    · rw [List.cons_append]
      simp only [splitComma, hc, if_false, h1]
    · simp only [splitComma, hc, if_false, h2]

/-- A deck line as a person writes it: cells separated by commas. -/
def renderCells : List Txt → Txt
  | [] => []
  | [w] => w
  | w :: ws => w ++ ',' :: renderCells ws

theorem splitComma_render (cells : List Txt) (hne : cells ≠ []) (h : ∀ w ∈ cells, ',' ∉ w) :
    splitComma (renderCells cells) = cells := by
  induction cells with
  | nil => exact absurd rfl hne
  | cons w ws ih =>
    cases ws with
    | nil => exact (splitComma_cell w (h w (by simp)) []).2
    | cons w' ws =>
      rw [renderCells, (splitComma_cell w (h w (by simp)) _).1,
        ih (by simp) (fun x hx => h x (List.mem_cons_of_mem _ hx))]
      exact fun e => by cases e

theorem not_hash_render (cells : List Txt) (h : ∀ w ∈ cells, '#' ∉ w) : '#' ∉ renderCells cells := by
  induction cells with
  | nil => simp [renderCells]
  | cons w ws ih =>
    cases ws with
    | nil => exact h w (by simp)
    | cons w' ws =>
      rw [renderCells]
      · simp only [List.mem_append, List.mem_cons, not_or]
        exact ⟨h w (by simp), by decide, ih (fun x hx => h x (List.mem_cons_of_mem _ hx))⟩
      · exact fun e => by cases e

theorem takeWhile_all {α : Type} (p : α → Bool) (l r : List α) (h : ∀ x ∈ l, p x = true)
    (hr : ∀ x, r.head? = some x → p x = false) : (l ++ r).takeWhile p = l := by
  induction l with
  | nil =>
    cases r with
    | nil => rfl
    | cons x r => simp [hr x rfl]
  | cons a l ih =>
    simp [h a (by simp), ih (fun x hx => h x (List.mem_cons_of_mem _ hx))]

/-- A word without blanks at either end. -/
def Trimmed (w : Txt) : Prop := (∀ c, w.head? = some c → blank c = false) ∧ ∀ c, w.getLast? = some c → blank c = false

theorem dropWhile_pad {p : Char → Bool} (a w : Txt) (ha : ∀ c ∈ a, p c = true)
    (hw : ∀ c, w.head? = some c → p c = false) : (a ++ w).dropWhile p = w := by
  induction a with
  | nil =>
    cases w with
    | nil => rfl
    | cons x r => simp [hw x rfl]
  | cons x a ih => simp [ha x (by simp), ih (fun c hc => ha c (List.mem_cons_of_mem _ hc))]

/-- Blanks around a word disappear, the word itself is kept character by character. -/
theorem strip_padded (a w b : Txt) (ha : ∀ c ∈ a, blank c = true) (hb : ∀ c ∈ b, blank c = true)
    (hw : Trimmed w) : strip (a ++ w ++ b) = w := by
  unfold strip stripBy
  cases w with
  | nil =>
    have : (a ++ [] ++ b).dropWhile blank = [] := by
      have e := dropWhile_pad (p := blank) (a ++ b) [] (by
        intro c hc
        rcases List.mem_append.1 hc with hc | hc
        · exact ha c hc
        · exact hb c hc) (by simp)
      simpa using e
    rw [this]; rfl
  | cons x r =>
    rw [List.append_assoc, dropWhile_pad a ((x :: r) ++ b) ha (by
      intro c hc; simp at hc; subst hc; exact hw.1 _ rfl)]
    rw [List.reverse_append, dropWhile_pad b.reverse (x :: r).reverse (by simpa using hb) (by
      intro c hc; rw [List.head?_reverse] at hc; exact hw.2 c hc)]
    exact List.reverse_reverse _

theorem blank_of_mem {c : Char} (h : c ∈ [' ', '\t', '\n', '\r']) : blank c = true := by
  simp only [List.mem_cons, List.not_mem_nil, or_false] at h
  rcases h with rfl | rfl | rfl | rfl <;> decide

/-- A cell as written: a word with blanks around it. -/
structure PadCell where
  pre : Txt
  word : Txt
  post : Txt
  hpre : ∀ c ∈ pre, c ∈ [' ', '\t', '\n', '\r']
  hpost : ∀ c ∈ post, c ∈ [' ', '\t', '\n', '\r']
  trimmed : Trimmed word
  noComma : ',' ∉ word
  noHash : '#' ∉ word

def PadCell.text (c : PadCell) : Txt := c.pre ++ c.word ++ c.post

/-- **C10 (tokens).** A line made of any number of cells, with any blanks around the words, empty cells anywhere
and any comment at the end, is read as exactly the list of its non-empty words. -/
theorem deckTokens_render (cells : List PadCell) (hne : cells ≠ []) (comment : Txt)
    (hc : comment = [] ∨ ∃ t, comment = '#' :: t) :
    deckTokens (renderCells (cells.map PadCell.text) ++ comment)
      = (cells.map PadCell.word).filter (fun w => w ≠ []) := by
  have blankNot : ∀ (c : Char), blank c = true → c ≠ ',' ∧ c ≠ '#' := by
    intro c h
    constructor <;> (rintro rfl; simp [blank] at h)
  have hno : ∀ w ∈ cells.map PadCell.text, ',' ∉ w ∧ '#' ∉ w := by
    intro w hw
    obtain ⟨c, _, rfl⟩ := List.mem_map.1 hw
    constructor
    · intro h
      simp only [PadCell.text, List.mem_append] at h
      rcases h with (h | h) | h
      · exact (blankNot _ (blank_of_mem (c.hpre _ h))).1 rfl
      · exact c.noComma h
      · exact (blankNot _ (blank_of_mem (c.hpost _ h))).1 rfl
    · intro h
      simp only [PadCell.text, List.mem_append] at h
      rcases h with (h | h) | h
      · exact (blankNot _ (blank_of_mem (c.hpre _ h))).2 rfl
      · exact c.noHash h
      · exact (blankNot _ (blank_of_mem (c.hpost _ h))).2 rfl
  unfold deckTokens beforeHash
  rw [takeWhile_all]
  · rw [splitComma_render _ (by simpa using hne) (fun w hw => (hno w hw).1), List.map_map]
    congr 1
    apply List.map_congr_left
    intro c _
    exact strip_padded c.pre c.word c.post (fun x hx => blank_of_mem (c.hpre x hx))
      (fun x hx => blank_of_mem (c.hpost x hx)) c.trimmed
  · intro x hx
    have := not_hash_render _ (fun w hw => (hno w hw).2)
    simp only [decide_eq_true_eq]
    rintro rfl; exact this hx
  · intro x hx
    rcases hc with rfl | ⟨t, rfl⟩
    · simp at hx
    · simp at hx; subst hx; simp

/-- **C10 (units).** The last entry is taken as units exactly when it is a unit; otherwise all entries are values.
A line with nothing after the name is an `IndexError` (it is not ignored). -/
theorem splitUnits_spec (rt : TxtRT) (name : Txt) (vs : List Txt) (u : Txt) :
    (rt.validUnits u = true → splitUnits rt (name :: (vs ++ [u])) = .ok (name, vs, some u)) ∧
    (rt.validUnits u = false → splitUnits rt (name :: (vs ++ [u])) = .ok (name, vs ++ [u], none)) ∧
    splitUnits rt [name] = .error .indexError := by
  refine ⟨?_, ?_, rfl⟩ <;> intro h <;> simp [splitUnits, h]

/-- **C10 (entries).** What one entry becomes: an integer or float literal its value, `true`/`false` in any
capitalisation a boolean, everything else the text itself. -/
theorem convertEntry_spec (rt : TxtRT) (s : Txt) (hb : stripBy (fun c => c = '[' || c = ']') s = s) :
    (∀ i, '.' ∉ s → rt.pyInt s = some i → convertEntry rt s = .int i) ∧
    (∀ q, '.' ∈ s → rt.pyFloat s = some q → convertEntry rt s = .float q) ∧
    ('.' ∉ s → rt.pyInt s = none → lower s = "true".toList → convertEntry rt s = .bool true) ∧
    ('.' ∉ s → rt.pyInt s = none → lower s = "false".toList → convertEntry rt s = .bool false) ∧
    (('.' ∉ s → rt.pyInt s = none) → ('.' ∈ s → rt.pyFloat s = none) → lower s ≠ "true".toList →
      lower s ≠ "false".toList → convertEntry rt s = .str (String.ofList s)) := by
  refine ⟨?_, ?_, ?_, ?_, ?_⟩
  · intro i h1 h2; simp [convertEntry, hb, h1, h2]
  · intro i h1 h2; simp [convertEntry, hb, h1, h2]
  · intro h1 h2 h3; simp [convertEntry, hb, h1, h2, h3]
  · intro h1 h2 h3; simp [convertEntry, hb, h1, h2, h3]
  · intro h1 h2 h3 h4
    by_cases h : '.' ∈ s
    · simp only [convertEntry, hb, h, h2 h, if_true, Option.map_none, if_neg h3, if_neg h4]
    · simp only [convertEntry, hb, h, h1 h, if_false, Option.map_none, if_neg h3, if_neg h4]

/-- **C10 (stored value).** `n ≥ 2` entries are stored as the list of their values in order; one entry of a
single-valued variable is not wrapped; one number of a multi-valued variable becomes a one-element array. -/
theorem deckValue_spec (rt : TxtRT) (multi : Bool) (s t : Txt) (rest : List Txt) :
    deckValue rt multi (s :: t :: rest) = .ok (.list ((s :: t :: rest).map (convertEntry rt))) ∧
    deckValue rt false [s] = .ok (convertEntry rt s) ∧
    (∀ i, convertEntry rt s = .int i → deckValue rt true [s] = .ok (.arrI [i])) ∧
    (∀ q, convertEntry rt s = .float q → deckValue rt true [s] = .ok (.arrF [q])) ∧
    (∀ w, convertEntry rt s = .str w → deckValue rt true [s] = .ok (.list [.str w])) ∧
    (∀ b, convertEntry rt s = .bool b → deckValue rt true [s] = .ok (.arrO [.bool b])) ∧
    deckValue rt multi [] = .error .indexError := by
  refine ⟨by simp [deckValue], by simp [deckValue], ?_, ?_, ?_, ?_, by simp [deckValue]⟩ <;>
    (intro i h; simp [deckValue, h])

/-- **C10 (unknown names).** A line whose name is neither a known variable nor a guess never changes anything. -/
theorem deckLine_unknown (db : UnitDB) (prt : PyRT) (rt : TxtRT) (md : Dict String Meta) (gs : List String)
    (st st' : DeckState) (line name : Txt) (rest : List Txt) (ht : deckTokens line = name :: rest)
    (h1 : Dict.get? md (String.ofList name) = none) (h2 : String.ofList name ∉ gs)
    (h3 : ¬ guessPrefix <+: name) (h : deckLine db prt rt md gs st line = .ok st') : st' = st := by
  simp only [deckLine, ht] at h
  cases hs : splitUnits rt (name :: rest) with
  | error e => simp [hs, bind, Except.bind] at h
  | ok r =>
    obtain ⟨n', raw, units⟩ := r
    have hn : n' = name := by
      simp only [splitUnits] at hs
      cases hl : rest.getLast? with
      | none => simp [hl] at hs
      | some u =>
        simp only [hl] at hs
        split at hs <;> (cases hs; rfl)
    subst hn
    simp only [hs, bind, Except.bind, h1] at h
    cases hv : deckValue rt false raw with
    | error e => simp [hv] at h
    | ok v => simp [hv, h2, h3] at h; exact h.symm

/-- **C10 (known names).** A line for a known variable performs exactly one `set_val` with the parsed value and
with the units written on the line, or the metadata units when none are written; guesses are untouched. -/
theorem deckLine_known (db : UnitDB) (prt : PyRT) (rt : TxtRT) (md : Dict String Meta) (gs : List String)
    (st st' : DeckState) (line name : Txt) (rest : List Txt) (m : Meta) (ht : deckTokens line = name :: rest)
    (h1 : Dict.get? md (String.ofList name) = some m) (h : deckLine db prt rt md gs st line = .ok st') :
    ∃ raw units v, splitUnits rt (name :: rest) = .ok (name, raw, units) ∧
      deckValue rt m.multivalue raw = .ok v ∧ st'.guesses = st.guesses ∧
      avSet db prt md st.values (String.ofList name) v
        (some ((units.map String.ofList).getD m.units)) = .ok st'.values := by
  simp only [deckLine, ht] at h
  cases hs : splitUnits rt (name :: rest) with
  | error e => simp [hs, bind, Except.bind] at h
  | ok r =>
    obtain ⟨n', raw, units⟩ := r
    have hn : n' = name := by
      simp only [splitUnits] at hs
      cases hl : rest.getLast? with
      | none => simp [hl] at hs
      | some u =>
        simp only [hl] at hs
        split at hs <;> (cases hs; rfl)
    subst hn
    simp only [hs, bind, Except.bind, h1] at h
    cases hv : deckValue rt m.multivalue raw with
    | error e => simp [hv] at h
    | ok v =>
      simp only [hv] at h
      refine ⟨raw, units, v, rfl, hv, ?_⟩
      cases units with
      | none =>
        simp only at h
        cases ha : avSet db prt md st.values (String.ofList n') v (some m.units) with
        | error e => simp [ha] at h
        | ok vals => simp [ha] at h; subst h; exact ⟨rfl, by simpa using ha⟩
      | some u =>
        simp only at h
        cases ha : avSet db prt md st.values (String.ofList n') v (some (String.ofList u)) with
        | error e => simp [ha] at h
        | ok vals => simp [ha] at h; subst h; exact ⟨rfl, by simpa using ha⟩

/-- **C10 (guesses).** A line for a name without metadata that is a known guess, or that carries the
`initialization_guesses:` prefix, stores the parsed value under the guess name (without the prefix) and leaves
the option container alone. -/
theorem deckLine_guess (db : UnitDB) (prt : PyRT) (rt : TxtRT) (md : Dict String Meta) (gs : List String)
    (st st' : DeckState) (line name : Txt) (rest : List Txt) (ht : deckTokens line = name :: rest)
    (h1 : Dict.get? md (String.ofList name) = none) (h : deckLine db prt rt md gs st line = .ok st') :
    (String.ofList name ∈ gs → ∃ raw units v, splitUnits rt (name :: rest) = .ok (name, raw, units) ∧
      deckValue rt false raw = .ok v ∧ st'.values = st.values ∧
      st'.guesses = Dict.set st.guesses (String.ofList name) v) ∧
    (String.ofList name ∉ gs → ∀ short, name = "initialization_guesses:".toList ++ short →
      ∃ raw units v, splitUnits rt (name :: rest) = .ok (name, raw, units) ∧
      deckValue rt false raw = .ok v ∧ st'.values = st.values ∧
      st'.guesses = Dict.set st.guesses (String.ofList short) v) := by
  unfold deckLine at h
  rw [ht] at h
  cases hsp : splitUnits rt (name :: rest) with
  | error e => simp [hsp, bind, Except.bind] at h
  | ok t =>
    obtain ⟨nm, raw, units⟩ := t
    have hnm : nm = name := by
      unfold splitUnits at hsp
      cases hl : rest.getLast? with
      | none => simp [hl] at hsp
      | some u =>
        simp only [hl] at hsp
        split at hsp <;> simp_all
    subst hnm
    simp only [hsp, bind, Except.bind, h1] at h
    cases hv : deckValue rt false raw with
    | error e => simp [hv] at h
    | ok v =>
      simp only [hv] at h
      refine ⟨?_, ?_⟩
      · intro hg
        simp only [hg, if_true, Except.ok.injEq] at h
        subst h
        exact ⟨raw, units, v, rfl, hv, rfl, rfl⟩
      · intro hg short hn
        have hp : guessPrefix <+: nm := ⟨short, hn.symm⟩
        have hd : nm.drop guessPrefix.length = short := by
          rw [hn]; exact List.drop_left
        simp only [hg, hp, if_true, if_false, Except.ok.injEq, hd] at h
        subst h
        exact ⟨raw, units, v, rfl, hv, rfl, rfl⟩

/-- **C10 (whole deck).** Whatever the deck, the option container obtained from it satisfies the type and unit
invariant of C04 for every variable with metadata. -/
theorem parseDeck_conforms (db : UnitDB) (prt : PyRT) (rt : TxtRT) (md : Dict String Meta)
    (guesses : Dict String PVal) (lines : List Txt) (st : DeckState)
    (h : parseDeck db prt rt md ⟨[], guesses⟩ lines = .ok st) (k u : String) (v : PVal) (m : Meta)
    (hm : Dict.get? md k = some m) (hk : Dict.get? st.values k = some (v, u)) :
    Compatible db m u ∧ (IsObjArray v ∨ Conforms m v) := by
  have gen : ∀ (lines : List Txt) (gs : List String) (s0 : DeckState) (cs : List SetCall),
      s0.values = avRun db prt md cs → lines.foldlM (deckLine db prt rt md gs) s0 = .ok st →
      ∃ cs', st.values = avRun db prt md cs' := by
    intro lines gs
    induction lines with
    | nil =>
      intro s0 cs h0 h
      simp [pure, Except.pure] at h; subst h
      exact ⟨cs, h0⟩
    | cons l ls ih =>
      intro s0 cs h0 h
      rw [List.foldlM_cons] at h
      cases hl : deckLine db prt rt md gs s0 l with
      | error e => simp [hl, bind, Except.bind] at h
      | ok s1 =>
        simp only [hl, bind, Except.bind] at h
        cases ht : deckTokens l with
        | nil =>
          have : s1 = s0 := by simp [deckLine, ht] at hl; exact hl.symm
          subst this
          exact ih _ cs h0 h
        | cons name rest =>
          cases hmd : Dict.get? md (String.ofList name) with
          | some m' =>
            obtain ⟨raw, units, v', _, _, _, ha⟩ :=
              deckLine_known db prt rt md gs s0 s1 l name rest m' ht hmd hl
            refine ih s1 (cs ++ [⟨String.ofList name, v', some ((units.map String.ofList).getD m'.units)⟩]) ?_ h
            rw [h0] at ha
            unfold avRun at ha ⊢
            rw [List.foldl_append]
            simp [avStep, ha]
          | none =>
            have hvals : s1.values = s0.values := by
              simp only [deckLine, ht] at hl
              cases hs : splitUnits rt (name :: rest) with
              | error e => simp [hs, bind, Except.bind] at hl
              | ok r =>
                obtain ⟨n', raw, units⟩ := r
                have hn : n' = name := by
                  simp only [splitUnits] at hs
                  cases hl : rest.getLast? with
                  | none => simp [hl] at hs
                  | some u =>
                    simp only [hl] at hs
                    split at hs <;> (cases hs; rfl)
                subst hn
                simp only [hs, bind, Except.bind, hmd] at hl
                cases hv : deckValue rt false raw with
                | error e => simp [hv] at hl
                | ok v =>
                  simp only [hv] at hl
                  split at hl
                  · cases hl; rfl
                  · split at hl <;> (cases hl; rfl)
            exact ih s1 cs (hvals.trans h0) h
  obtain ⟨cs, hcs⟩ := gen lines _ ⟨[], guesses⟩ [] rfl h
  rw [hcs] at hk
  exact avRun_conforms_partial db prt md cs k u v m hm hk

/-- A text runtime for the examples: decimal integers without sign, one fraction literal, two units. -/
def demoRT : TxtRT where
  pyInt s := (String.ofList s).toNat?.map Int.ofNat
  pyFloat s := if s = "1.5".toList then some (3 / 2) else none
  validUnits s := s = "ft".toList || s = "m".toList

/-- **C10 violated (exponent notation).** A number written without a decimal point but with an exponent is not
an integer literal, so it is stored as text. -/
theorem convertEntry_exponent_violated (rt : TxtRT) (h : rt.pyInt "1e5".toList = none) :
    convertEntry rt "1e5".toList = .str "1e5" := by
  have h1 : stripBy (fun c => c = '[' || c = ']') "1e5".toList = "1e5".toList := by decide
  have h2 : '.' ∉ "1e5".toList := by decide
  have h3 : lower "1e5".toList ≠ "true".toList := by decide
  have h4 : lower "1e5".toList ≠ "false".toList := by decide
  simp only [convertEntry, h1, h2, h, h3, h4]
  simp

/-- **C10 violated (text values that look like units).** A text value that happens to be a unit name is taken
as the units, leaving no value: `IndexError`. -/
theorem deckLine_text_is_unit_violated (rt : TxtRT) (name u : Txt) (multi : Bool)
    (h : rt.validUnits u = true) :
    ∃ raw, splitUnits rt [name, u] = .ok (name, raw, some u) ∧ deckValue rt multi raw = .error .indexError :=
  ⟨[], by simp [splitUnits, h], by simp [deckValue]⟩

example : deckTokens " aircraft:wing:span , 10,,20 ,ft , # span".toList
    = ["aircraft:wing:span".toList, "10".toList, "20".toList, "ft".toList] := by decide

/-! ## C32: verbosity of a deck -/

/-- **C32 violated.** The documented rule is "argument if given, else the deck's value, else the default".  The
deck's value is never used: with no argument the stored verbosity is BRIEF whatever the deck says. -/
theorem storedVerbosity_ignores_deck_violated (deck : Option Int) (dflt : Int) :
    storedVerbosity none deck dflt = 1 := rfl

theorem storedVerbosity_not_documented : ∃ deck dflt : Int,
    storedVerbosity none (some deck) dflt ≠ deck := ⟨3, 1, by decide⟩

/-- **C32 (partial).** A given argument is stored. -/
theorem storedVerbosity_arg_partial (v : Int) (deck : Option Int) (dflt : Int) :
    storedVerbosity (some v) deck dflt = v := rfl

/-! ## C29: dependent options -/

/-- The condition of a dependency evaluated on the controlling value. -/
def Dependency.holds (ops : String → Option (PVal → PVal → Bool)) (isIn : PVal → PVal → Bool)
    (d : Dependency) (v : PVal) : Bool :=
  match ops d.relation with
  | some comp => comp v d.val
  | none => isIn v d.val

/-- A relation the code knows. -/
def Dependency.known (ops : String → Option (PVal → PVal → Bool)) (d : Dependency) : Prop :=
  (ops d.relation).isSome ∨ d.relation = "in"

/-- The setter used: `set_val(target, val=outcome)`. -/
def optionSet (s : NV) (k : String) (v : PVal) : Except Err NV := .ok (Dict.set s k (v, "unitless"))

/-- **C29.** For tables with known relations whose targets are distinct and are not themselves controlling
variables, in any order: the call succeeds, every target whose controlling variable is present becomes `result`
or `alternate` according to the relation, and every other key keeps its entry. -/
theorem updateDependent_spec (ops : String → Option (PVal → PVal → Bool)) (isIn : PVal → PVal → Bool)
    (deps : List (String × Dependency)) (hk : ∀ p ∈ deps, p.2.known ops)
    (hd : (deps.map (fun p => p.2.target)).Nodup)
    (hc : ∀ p ∈ deps, ∀ q ∈ deps, p.2.target ≠ q.1) (prev : Option PVal) (s : NV) :
    ∃ s', updateDependent ops isIn optionSet deps prev s = .ok s' ∧
      (∀ p ∈ deps, ∀ v u, Dict.get? s p.1 = some (v, u) →
        Dict.get? s' p.2.target =
          some (if p.2.holds ops isIn v then p.2.result else p.2.alternate, "unitless")) ∧
      (∀ k, (∀ p ∈ deps, k = p.2.target → Dict.get? s p.1 = none) → Dict.get? s' k = Dict.get? s k) := by
  induction deps generalizing prev s with
  | nil => exact ⟨s, rfl, by simp, by simp⟩
  | cons p deps ih =>
    obtain ⟨name, d⟩ := p
    rw [List.map_cons, List.nodup_cons] at hd
    have hk' : ∀ p ∈ deps, p.2.known ops := fun p hp => hk p (List.mem_cons_of_mem _ hp)
    have hc' : ∀ p ∈ deps, ∀ q ∈ deps, p.2.target ≠ q.1 := fun p hp q hq =>
      hc p (List.mem_cons_of_mem _ hp) q (List.mem_cons_of_mem _ hq)
    cases hg : Dict.get? s name with
    | none =>
      obtain ⟨s', h1, h2, h3⟩ := ih hk' hd.2 hc' prev s
      refine ⟨s', by simpa [updateDependent, hg] using h1, ?_, ?_⟩
      · intro p hp v u hv
        rcases List.mem_cons.1 hp with rfl | hp
        · simp only at hv; rw [hg] at hv; cases hv
        · exact h2 p hp v u hv
      · intro k hk2; exact h3 k (fun p hp => hk2 p (List.mem_cons_of_mem _ hp))
    | some vu =>
      obtain ⟨v, u⟩ := vu
      set o := if d.holds ops isIn v then d.result else d.alternate with ho
      have hout : updateDependent ops isIn optionSet ((name, d) :: deps) prev s
          = updateDependent ops isIn optionSet deps (some o) (Dict.set s d.target (o, "unitless")) := by
        rcases hk (name, d) List.mem_cons_self with h | h
        · obtain ⟨comp, hcomp⟩ := Option.isSome_iff_exists.1 h
          simp only at hcomp
          simp [updateDependent, hg, hcomp, optionSet, ho, Dependency.holds]
        · simp only at h
          cases hop : ops d.relation with
          | some comp => simp [updateDependent, hg, hop, optionSet, ho, Dependency.holds]
          | none =>
            have hop' : ops "in" = none := h ▸ hop
            simp [updateDependent, hg, h, hop', optionSet, ho, Dependency.holds]
      have hctl : ∀ q ∈ deps, Dict.get? (Dict.set s d.target (o, "unitless")) q.1 = Dict.get? s q.1 :=
        fun q hq => Dict.get?_set_ne _ _ (hc (name, d) List.mem_cons_self q (List.mem_cons_of_mem _ hq))
      obtain ⟨s', h1, h2, h3⟩ := ih hk' hd.2 hc' (some o) (Dict.set s d.target (o, "unitless"))
      refine ⟨s', by rw [hout]; exact h1, ?_, ?_⟩
      · intro p hp v' u' hv
        rcases List.mem_cons.1 hp with rfl | hp
        · simp only at hv ⊢; rw [hg] at hv; cases hv
          rw [h3 d.target]
          · rw [Dict.get?_set_self]
          · intro q hq heq
            exact absurd (List.mem_map.2 ⟨q, hq, heq.symm⟩) hd.1
        · exact h2 p hp v' u' (by rw [hctl p hp]; exact hv)
      · intro k hk2
        have hkt : d.target ≠ k := by
          intro e
          have := hk2 (name, d) List.mem_cons_self e.symm
          simp only at this; rw [hg] at this; cases this
        rw [h3 k, Dict.get?_set_ne _ _ hkt]
        intro p hp e
        rw [hctl p hp]
        exact hk2 p (List.mem_cons_of_mem _ hp) e

/-- The controlling variables and targets of the table in the code (aviary/utils/process_input_decks.py:479-574). -/
def dependentTable : List (String × String × String) :=
  [("aircraft:design:wing_loading", ">", "aircraft:wing:loading_above_20"),
   ("aircraft:strut:attachment_location", "!=", "aircraft:wing:has_strut"),
   ("aircraft:strut:attachment_location", ">", "aircraft:strut:dimensional_location_specified"),
   ("aircraft:wing:fold_mass_coefficient", ">", "aircraft:wing:has_fold"),
   ("aircraft:wing:folded_span", ">", "aircraft:wing:fold_dimensional_location_specified"),
   ("aircraft:design:part25_structural_category", "<", "aircraft:design:ulf_calculated_from_maneuver"),
   ("aircraft:horizontal_tail:volume_coefficient", "==", "aircraft:design:compute_htail_volume_coeff"),
   ("aircraft:vertical_tail:volume_coefficient", "==", "aircraft:design:compute_vtail_volume_coeff")]

/-- **C29 (the shipped table).** The shipped table meets the hypotheses of `updateDependent_spec`. -/
theorem dependentTable_ok :
    (dependentTable.map (·.2.2)).Nodup ∧
    (∀ p ∈ dependentTable, ∀ q ∈ dependentTable, p.2.2 ≠ q.1) ∧
    (∀ p ∈ dependentTable, p.2.1 ∈ ["<", "<=", "==", "!=", ">=", ">", "isinstance", "in"]) := by
  decide +kernel

/-- **C29 violated (unknown relation).** An unknown relation is reported as a warning only; the first entry then
crashes with `UnboundLocalError`, a later one silently reuses the outcome of the previous entry. -/
theorem updateDependent_unknown_violated (ops : String → Option (PVal → PVal → Bool))
    (isIn : PVal → PVal → Bool) (name : String) (d : Dependency) (hop : ops d.relation = none)
    (hin : d.relation ≠ "in") (s : NV) (v : PVal) (u : String) (hg : Dict.get? s name = some (v, u)) (o : PVal) :
    updateDependent ops isIn optionSet [(name, d)] none s = .error .unboundLocal ∧
    updateDependent ops isIn optionSet [(name, d)] (some o) s
      = .ok (Dict.set s d.target (o, "unitless")) := by
  simp [updateDependent, hg, hop, hin, optionSet]

example : ∃ s', updateDependent (fun r => if r = ">" then some (fun a b => match a, b with
      | .int x, .int y => decide (x > y)
      | _, _ => false) else none) (fun _ _ => false) optionSet
    [("load", ⟨">", .int 20, .bool true, .bool false, "above"⟩)] none [("load", (.int 30, "lb"))] = .ok s' ∧
    Dict.get? s' "above" = some (.bool true, "unitless") := ⟨_, rfl, rfl⟩

end Verif
