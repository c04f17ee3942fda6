import Verif.Model.ConvertedFile
import Verif.Props.InputDeck
import Verif.Props.FortranStore

/-! # C142: the file written by the conversion of a legacy deck -/

namespace Verif.Fortran

variable {sf : ℚ → Txt} {rt : TxtRT}

/-! ## Order of the rows -/

theorem txtLe_total (a b : Txt) : txtLe a b = true ∨ txtLe b a = true := by
  induction a generalizing b with
  | nil => exact .inl rfl
  | cons x xs ih =>
    cases b with
    | nil => exact .inr rfl
    | cons y ys =>
      by_cases h : x = y
      · subst h; simpa [txtLe] using ih ys
      · have hn : x.toNat ≠ y.toNat := fun e => h (Char.toNat_inj.1 e)
        simp only [txtLe, if_neg h, if_neg (Ne.symm h), decide_eq_true_eq]
        omega

theorem txtLe_trans (a b c : Txt) (h1 : txtLe a b = true) (h2 : txtLe b c = true) : txtLe a c = true := by
  induction a generalizing b c with
  | nil => rfl
  | cons x xs ih =>
    cases b with
    | nil => simp [txtLe] at h1
    | cons y ys =>
      cases c with
      | nil => simp [txtLe] at h2
      | cons z zs =>
        by_cases hxy : x = y
        · subst hxy
          by_cases hxz : x = z
          · subst hxz
            simp only [txtLe, if_true] at h1 h2 ⊢
            exact ih _ _ h1 h2
          · simp only [txtLe, if_true, if_neg hxz] at h1 h2 ⊢
            exact h2
        · by_cases hyz : y = z
          · subst hyz
            simp only [txtLe, if_true, if_neg hxy] at h1 h2 ⊢
            exact h1
          · simp only [txtLe, if_neg hxy, if_neg hyz, decide_eq_true_eq] at h1 h2
            have hxz : x ≠ z := by rintro rfl; omega
            simp only [txtLe, if_neg hxz, decide_eq_true_eq]
            omega

theorem txtLe_antisymm (a b : Txt) (h1 : txtLe a b = true) (h2 : txtLe b a = true) : a = b := by
  induction a generalizing b with
  | nil => cases b with
    | nil => rfl
    | cons y ys => simp [txtLe] at h2
  | cons x xs ih =>
    cases b with
    | nil => simp [txtLe] at h1
    | cons y ys =>
      by_cases h : x = y
      · subst h
        simp only [txtLe, if_true] at h1 h2
        rw [ih _ h1 h2]
      · simp only [txtLe, if_neg h, if_neg (Ne.symm h), decide_eq_true_eq] at h1 h2
        omega

theorem insertEntry_perm {α : Type} (e : Txt × α) (l : List (Txt × α)) : (insertEntry e l).Perm (e :: l) := by
  induction l with
  | nil => exact List.Perm.refl _
  | cons f fs ih =>
    simp only [insertEntry]
    split
    · exact List.Perm.refl _
    · exact (List.Perm.cons f ih).trans (List.Perm.swap e f fs)

/-- Every value is written once and nothing else is. -/
theorem sortEntries_perm {α : Type} (l : List (Txt × α)) : (sortEntries l).Perm l := by
  induction l with
  | nil => exact List.Perm.refl _
  | cons e es ih => exact (insertEntry_perm e _).trans (List.Perm.cons e ih)

theorem insertEntry_sorted {α : Type} (e : Txt × α) (l : List (Txt × α))
    (h : l.Pairwise (fun a b => txtLe a.1 b.1 = true)) :
    (insertEntry e l).Pairwise (fun a b => txtLe a.1 b.1 = true) := by
  induction l with
  | nil => simp [insertEntry]
  | cons f fs ih =>
    rw [List.pairwise_cons] at h
    simp only [insertEntry]
    split
    · rename_i hle
      refine List.pairwise_cons.2 ⟨?_, List.pairwise_cons.2 h⟩
      intro b hb
      rcases List.mem_cons.1 hb with rfl | hb
      · exact hle
      · exact txtLe_trans _ _ _ hle (h.1 b hb)
    · rename_i hle
      refine List.pairwise_cons.2 ⟨?_, ih h.2⟩
      intro b hb
      rcases List.mem_cons.1 ((insertEntry_perm e fs).subset hb) with rfl | hb
      · rcases txtLe_total f.1 b.1 with h' | h'
        · exact h'
        · exact absurd h' hle
      · exact h.1 b hb

/-- The rows of a section are in the order of their names. -/
theorem sortEntries_sorted {α : Type} (l : List (Txt × α)) :
    (sortEntries l).Pairwise (fun a b => txtLe a.1 b.1 = true) := by
  induction l with
  | nil => exact List.Pairwise.nil
  | cons e es ih => exact insertEntry_sorted e _ ih

/-- The file does not depend on the order in which the variables were converted. -/
theorem sortEntries_unique {α : Type} (l m : List (Txt × α)) (hp : l.Perm m) (hn : (l.map Prod.fst).Nodup) :
    sortEntries l = sortEntries m := by
  have hp' : (sortEntries l).Perm (sortEntries m) :=
    (sortEntries_perm l).trans (hp.trans (sortEntries_perm m).symm)
  refine hp'.eq_of_pairwise (le := fun a b : Txt × α => txtLe a.1 b.1 = true) ?_ (sortEntries_sorted l) (sortEntries_sorted m)
  intro a b ha hb h1 h2
  have hk : a.1 = b.1 := txtLe_antisymm _ _ h1 h2
  have ha' : a ∈ l := (sortEntries_perm l).subset ha
  have hb' : b ∈ l := hp.symm.subset ((sortEntries_perm m).subset hb)
  clear hp hp' ha hb h1 h2
  induction l with
  | nil => simp at ha'
  | cons e es ih =>
    rw [List.map_cons, List.nodup_cons] at hn
    rcases List.mem_cons.1 ha' with h1 | h1 <;> rcases List.mem_cons.1 hb' with h2 | h2
    · exact h1.trans h2.symm
    · exact absurd (List.mem_map.2 ⟨b, h2, by rw [← hk, h1]⟩) hn.1
    · exact absurd (List.mem_map.2 ⟨a, h1, by rw [hk, h2]⟩) hn.1
    · exact ih hn.2 h1 h2

example : (sortEntries [("b".toList, 1), ("a".toList, 2), ("B".toList, 3)]).map Prod.snd = [3, 2, 1] := by decide

/-! ## Reading a row back -/

/-- A text that `csv.writer` leaves alone and the reader does not change. -/
structure Plain (t : Txt) : Prop where
  ne : t ≠ []
  trimmed : Trimmed t
  clean : ∀ c ∈ t, special c = false ∧ c ≠ '#'

theorem csvField_plain {t : Txt} (h : ∀ c ∈ t, special c = false) : csvField t = t := by
  have : t.any special = false := by
    rw [List.any_eq_false]; intro c hc; simp [h c hc]
  simp [csvField, this]

theorem joinChar_eq_render (cells : List Txt) : joinChar ',' cells = renderCells cells := by
  induction cells with
  | nil => rfl
  | cons a l ih =>
    cases l with
    | nil => rfl
    | cons b l =>
      show a ++ ',' :: joinChar ',' (b :: l) = _
      rw [ih]; rfl

theorem csvRow_plain {cells : List Txt} (h : ∀ t ∈ cells, Plain t) : csvRow cells = renderCells cells ++ ['\r', '\n'] := by
  unfold csvRow
  rw [show cells.map csvField = cells from by
    conv_rhs => rw [← List.map_id cells]
    exact List.map_congr_left (fun t ht => csvField_plain (fun c hc => ((h t ht).clean c hc).1)), joinChar_eq_render]

theorem renderCells_snoc (ws : List Txt) (w s : Txt) : renderCells (ws ++ [w]) ++ s = renderCells (ws ++ [w ++ s]) := by
  induction ws with
  | nil => rfl
  | cons a l ih =>
    cases l with
    | nil => simp [renderCells]
    | cons b l =>
      show (a ++ ',' :: renderCells (b :: l ++ [w])) ++ s = a ++ ',' :: renderCells (b :: l ++ [w ++ s])
      rw [← ih]; simp

theorem Plain.comma {t : Txt} (h : Plain t) : ',' ∉ t := fun hc => by
  have := (h.clean _ hc).1; revert this; decide

theorem Plain.hash {t : Txt} (h : Plain t) : '#' ∉ t := fun hc => (h.clean _ hc).2 rfl

/-- A row of plain fields is read back field by field. -/
theorem row_tokens {cells : List Txt} (hne : cells ≠ []) (h : ∀ t ∈ cells, Plain t) : deckTokens (csvRow cells) = cells := by
  obtain ⟨ws, w, rfl⟩ : ∃ ws w, cells = ws ++ [w] := ⟨_, _, (List.dropLast_append_getLast hne).symm⟩
  rw [csvRow_plain h, renderCells_snoc]
  have hw := h w (by simp)
  have hws : ∀ t ∈ ws, Plain t := fun t ht => h t (by simp [ht])
  have hnh : '#' ∉ renderCells (ws ++ [w ++ ['\r', '\n']]) := by
    apply not_hash_render
    intro t ht
    rcases List.mem_append.1 ht with ht | ht
    · exact (hws t ht).hash
    · rw [List.mem_singleton] at ht; subst ht
      simp [hw.hash]
  have hbh : beforeHash (renderCells (ws ++ [w ++ ['\r', '\n']])) = renderCells (ws ++ [w ++ ['\r', '\n']]) := by
    unfold beforeHash
    exact takeWhile_self _ _ (fun x hx => by
      simp only [decide_eq_true_eq]; rintro rfl; exact hnh hx)
  unfold deckTokens
  rw [hbh, splitComma_render _ (by simp) (by
    intro t ht
    rcases List.mem_append.1 ht with ht | ht
    · exact (hws t ht).comma
    · rw [List.mem_singleton] at ht; subst ht
      simp [hw.comma])]
  have hs : ∀ t, Plain t → strip t = t := fun t ht => by
    simpa using strip_padded [] t [] (by simp) (by simp) ht.trimmed
  have hsw : strip (w ++ ['\r', '\n']) = w := by
    have := strip_padded [] w ['\r', '\n'] (by simp) (by intro c hc; simp at hc; rcases hc with rfl | rfl <;> decide) hw.trimmed
    simpa using this
  rw [List.map_append, List.map_singleton, hsw,
    show ws.map strip = ws from by
      conv_rhs => rw [← List.map_id ws]
      exact List.map_congr_left (fun t ht => hs t (hws t ht))]
  rw [List.filter_eq_self]
  intro t ht
  simpa using (h t ht).ne

/-- A comment without comma, quote and line end is skipped. -/
theorem comment_tokens (t : Txt) (h : ∀ c ∈ '#' :: t, special c = false) : deckTokens (csvRow ['#' :: t]) = [] := by
  have : csvRow ['#' :: t] = '#' :: t ++ ['\r', '\n'] := by
    simp [csvRow, csvField_plain h, joinChar]
  rw [this]
  simp [deckTokens, beforeHash, splitComma, strip, stripBy]

theorem blank_tokens : deckTokens (csvRow []) = [] := by decide

/-- A comment with a comma is written in quotes, so its line no longer starts with the comment sign. -/
theorem comment_comma_tokens (t : Txt) (h : ',' ∈ t) : deckTokens (csvRow ['#' :: t]) = ["\"".toList] := by
  have hs : ('#' :: t).any special = true := List.any_eq_true.2 ⟨',', by simp [h], by decide⟩
  have : csvRow ['#' :: t] = '"' :: '#' :: (doubleQuotes t ++ ['"'] ++ ['\r', '\n']) := by
    simp [csvRow, csvField, hs, joinChar, doubleQuotes]
  rw [this]
  simp [deckTokens, beforeHash]
  decide

/-! ## Reading the whole file back -/

/-- What a stored list means for a variable: several values stay a list; one value of a variable with one value is the
value; one number of a variable with several values is an array. -/
def meaning (multi : Bool) : List PVal → PVal
  | [.int i] => if multi then .arrI [i] else .int i
  | [.float q] => if multi then .arrF [q] else .float q
  | [.bool b] => if multi then .arrO [.bool b] else .bool b
  | [v] => if multi then .list [v] else v
  | vs => .list vs

/-- The text of `v` is plain and is read as `r`. -/
def ReadsAs (rt : TxtRT) (sf : ℚ → Txt) (v r : PVal) : Prop := Plain (cellText sf v) ∧ convertEntry rt (cellText sf v) = r

theorem deckValue_meaning (rt : TxtRT) (multi : Bool) (raw : List Txt) (hne : raw ≠ []) :
    deckValue rt multi raw = .ok (meaning multi (raw.map (convertEntry rt))) := by
  match raw with
  | [] => exact absurd rfl hne
  | [s] =>
    cases multi <;> simp only [deckValue, List.map_cons, List.map_nil] <;> cases convertEntry rt s <;> rfl
  | s :: t :: rest =>
    simp only [deckValue, List.map_cons]
    cases convertEntry rt s <;> rfl

/-- An input value that the file can carry: a plain name and units, at least one value, every value read as `rd` says. -/
structure InputOk (rt : TxtRT) (sf : ℚ → Txt) (md : Dict String Meta) (rd : PVal → PVal) (e : Txt × List PVal × String) :
    Prop where
  name : Plain e.1
  known : (Dict.get? md (String.ofList e.1)).isSome
  vals : e.2.1 ≠ []
  reads : ∀ v ∈ e.2.1, ReadsAs rt sf v (rd v)
  units : Plain e.2.2.toList
  valid : rt.validUnits e.2.2.toList = true

/-- Reading the row of an input value is one `set_val` with the value and the units that were converted. -/
theorem input_line (db : UnitDB) (prt : PyRT) (md : Dict String Meta) (gs : List String) (st : DeckState)
    (rd : PVal → PVal) (e : Txt × List PVal × String) (h : InputOk rt sf md rd e) (m : Meta)
    (hm : Dict.get? md (String.ofList e.1) = some m) :
    deckLine db prt rt md gs st (inputRow sf e) = (do
      let vals ← avSet db prt md st.values (String.ofList e.1) (meaning m.multivalue (e.2.1.map rd)) (some e.2.2)
      .ok { st with values := vals }) := by
  obtain ⟨n, vs, u⟩ := e
  have ht : deckTokens (inputRow sf (n, vs, u)) = n :: (vs.map (cellText sf) ++ [u.toList]) := by
    have := row_tokens (cells := n :: vs.map (cellText sf) ++ [u.toList]) (by simp) (by
      intro t ht
      simp only [List.cons_append, List.mem_cons, List.mem_append, List.mem_map, List.not_mem_nil, or_false] at ht
      rcases ht with rfl | ⟨v, hv, rfl⟩ | rfl
      · exact h.name
      · exact (h.reads v hv).1
      · exact h.units)
    simpa [inputRow] using this
  have hsp := (splitUnits_spec rt n (vs.map (cellText sf)) u.toList).1 h.valid
  have hval := deckValue_meaning rt m.multivalue (vs.map (cellText sf)) (by simpa using h.vals)
  have hr : (vs.map (cellText sf)).map (convertEntry rt) = vs.map rd := by
    rw [List.map_map]
    exact List.map_congr_left (fun v hv => (h.reads v hv).2)
  rw [hr] at hval
  have hm' : Dict.get? md (String.ofList n) = some m := hm
  unfold deckLine
  rw [ht]
  simp only [hsp, bind, Except.bind, hm', hval, String.ofList_toList]

/-- Reading a row of a guess stores the guess. -/
theorem guess_line (db : UnitDB) (prt : PyRT) (md : Dict String Meta) (gs : List String) (st : DeckState)
    (e : Txt × PVal) (r : PVal) (hn : Plain e.1) (hr : ReadsAs rt sf e.2 r)
    (hu : rt.validUnits (cellText sf e.2) = false) (hm : Dict.get? md (String.ofList e.1) = none)
    (hg : String.ofList e.1 ∈ gs) :
    deckLine db prt rt md gs st (guessRow sf e) = .ok { st with guesses := Dict.set st.guesses (String.ofList e.1) r } := by
  have ht : deckTokens (guessRow sf e) = e.1 :: ([] ++ [cellText sf e.2]) := by
    have := row_tokens (cells := [e.1, cellText sf e.2]) (by simp) (by
      intro t ht
      simp only [List.mem_cons, List.not_mem_nil, or_false] at ht
      rcases ht with rfl | rfl
      · exact hn
      · exact hr.1)
    simpa [guessRow] using this
  have hsp := (splitUnits_spec rt e.1 [] (cellText sf e.2)).2.1 hu
  have hval := deckValue_meaning rt false [cellText sf e.2] (by simp)
  rw [List.map_singleton, hr.2] at hval
  have hme : meaning false [r] = r := by cases r <;> rfl
  unfold deckLine
  rw [ht]
  simp only [List.nil_append] at hsp ⊢
  simp only [hsp, bind, Except.bind, hm, hval, hg, if_true, hme]

/-- A value that was not converted does no harm to the reader: a plain name that means nothing, at least one value, and
the last value is not the only one if it looks like units. -/
structure UnusedOk (rt : TxtRT) (sf : ℚ → Txt) (md : Dict String Meta) (gs : List String) (e : Txt × List PVal × String) :
    Prop where
  name : Plain e.1
  unknown : Dict.get? md (String.ofList e.1) = none
  noGuess : String.ofList e.1 ∉ gs
  noPrefix : ¬ guessPrefix <+: e.1
  vals : e.2.1 ≠ []
  plain : ∀ v ∈ e.2.1, Plain (cellText sf v)
  noUnits : ∀ v, e.2.1.getLast? = some v → rt.validUnits (cellText sf v) = false

theorem unused_line (db : UnitDB) (prt : PyRT) (md : Dict String Meta) (gs : List String) (st : DeckState)
    (e : Txt × List PVal × String) (h : UnusedOk rt sf md gs e) :
    deckLine db prt rt md gs st (unusedRow sf e) = .ok st := by
  obtain ⟨n, vs, u⟩ := e
  obtain ⟨ws, w, hw⟩ : ∃ ws w, vs = ws ++ [w] := ⟨_, _, (List.dropLast_append_getLast h.vals).symm⟩
  subst hw
  have ht : deckTokens (unusedRow sf (n, ws ++ [w], u)) = n :: (ws.map (cellText sf) ++ [cellText sf w]) := by
    have := row_tokens (cells := n :: (ws ++ [w]).map (cellText sf)) (by simp) (by
      intro t ht
      simp only [List.mem_cons, List.mem_map] at ht
      rcases ht with rfl | ⟨v, hv, rfl⟩
      · exact h.name
      · exact h.plain v hv)
    simpa [unusedRow] using this
  have hsp := (splitUnits_spec rt n (ws.map (cellText sf)) (cellText sf w)).2.1 (h.noUnits w (by simp))
  have hval := deckValue_meaning rt false (ws.map (cellText sf) ++ [cellText sf w]) (by simp)
  have h1 : Dict.get? md (String.ofList n) = none := h.unknown
  have h2 : String.ofList n ∉ gs := h.noGuess
  have h3 : ¬ guessPrefix <+: n := h.noPrefix
  unfold deckLine
  rw [ht]
  simp only [hsp, bind, Except.bind, h1, hval, h2, h3, if_false]

/-- One `set_val` of the reader. -/
def readInput (db : UnitDB) (prt : PyRT) (md : Dict String Meta) (rd : PVal → PVal) (s : NV)
    (e : Txt × List PVal × String) : Except Err NV :=
  match Dict.get? md (String.ofList e.1) with
  | none => .ok s
  | some m => avSet db prt md s (String.ofList e.1) (meaning m.multivalue (e.2.1.map rd)) (some e.2.2)

theorem foldlM_append_ok {σ : Type} (f : σ → Txt → Except Err σ) (s : σ) (a b : List Txt) :
    (a ++ b).foldlM f s = (do let t ← a.foldlM f s; b.foldlM f t) := by
  simp [List.foldlM_append]

theorem foldlM_skip {σ : Type} (f : σ → Txt → Except Err σ) (s : σ) (ls : List Txt) (h : ∀ l ∈ ls, ∀ t, f t l = .ok t) :
    ls.foldlM f s = .ok s := by
  induction ls with
  | nil => rfl
  | cons l ls ih =>
    rw [List.foldlM_cons, h l (by simp)]
    exact ih (fun l hl => h l (List.mem_cons_of_mem _ hl))

theorem deckLine_nil (db : UnitDB) (prt : PyRT) (md : Dict String Meta) (gs : List String) (st : DeckState) (l : Txt)
    (h : deckTokens l = []) : deckLine db prt rt md gs st l = .ok st := by
  unfold deckLine; rw [h]

/-- **C142 (round trip).** The converted file, read by `parse_inputs`, performs exactly one `set_val` for each converted
value, with that value and those units, in the order of the names; it stores the guesses of a GASP deck; the comments and
the values that were not converted change nothing. -/
theorem converted_readback (db : UnitDB) (prt : PyRT) (md : Dict String Meta) (st : DeckState) (rd : PVal → PVal)
    (gasp : Bool) (comments : List Txt) (v : Vehicle)
    (hc : ∀ c ∈ comments, ∃ t, c = '#' :: t ∧ ∀ x ∈ c, special x = false)
    (hi : ∀ e ∈ v.input, InputOk rt sf md rd e)
    (hg : gasp = true → ∀ e ∈ v.guesses, Plain e.1 ∧ ReadsAs rt sf e.2 (rd e.2) ∧
      rt.validUnits (cellText sf e.2) = false ∧ Dict.get? md (String.ofList e.1) = none ∧
      String.ofList e.1 ∈ Dict.keys st.guesses)
    (hu : ∀ e ∈ v.unused, UnusedOk rt sf md (Dict.keys st.guesses) e) :
    parseDeck db prt rt md st (fileLines sf gasp comments v) = (do
      let vals ← (sortEntries v.input).foldlM (readInput db prt md rd) st.values
      .ok ⟨vals, if gasp then
        (sortEntries v.guesses).foldl (fun d e => Dict.set d (String.ofList e.1) (rd e.2)) st.guesses
        else st.guesses⟩) := by
  unfold parseDeck
  generalize hgs : Dict.keys st.guesses = gs
  rw [hgs] at hg hu
  clear hgs
  have hsec : ∀ t : Txt, (∀ x ∈ '#' :: t, special x = false) → ∀ l ∈ [csvRow [], csvRow ['#' :: t]], ∀ s,
      deckLine db prt rt md gs s l = .ok s := by
    intro t ht l hl s
    simp only [List.mem_cons, List.not_mem_nil, or_false] at hl
    rcases hl with rfl | rfl
    · exact deckLine_nil db prt md gs s _ blank_tokens
    · exact deckLine_nil db prt md gs s _ (comment_tokens t ht)
  have s1 : ∀ s, (comments.map (fun c => csvRow [c])).foldlM (deckLine db prt rt md gs) s = .ok s := by
    intro s
    apply foldlM_skip
    intro l hl t
    obtain ⟨c, hcm, rfl⟩ := List.mem_map.1 hl
    obtain ⟨t', rfl, hx⟩ := hc c hcm
    exact deckLine_nil db prt md gs t _ (comment_tokens t' hx)
  have s2 : ∀ (es : List (Txt × List PVal × String)), (∀ e ∈ es, InputOk rt sf md rd e) → ∀ s : DeckState,
      (es.map (inputRow sf)).foldlM (deckLine db prt rt md gs) s = (do
        let vals ← es.foldlM (readInput db prt md rd) s.values
        .ok { s with values := vals }) := by
    intro es
    induction es with
    | nil => intro _ s; rfl
    | cons e es ih =>
      intro he s
      obtain ⟨m, hm⟩ := Option.isSome_iff_exists.1 (he e (by simp)).known
      rw [List.map_cons, List.foldlM_cons, List.foldlM_cons, input_line db prt md gs s rd e (he e (by simp)) m hm]
      have hri : readInput db prt md rd s.values e =
        avSet db prt md s.values (String.ofList e.1) (meaning m.multivalue (e.2.1.map rd)) (some e.2.2) := by
        simp only [readInput, hm]
      rw [hri]
      cases ha : avSet db prt md s.values (String.ofList e.1) (meaning m.multivalue (e.2.1.map rd)) (some e.2.2) with
      | error x => rfl
      | ok vals =>
        have := ih (fun e he' => he e (List.mem_cons_of_mem _ he')) { s with values := vals }
        simpa [bind, Except.bind] using this
  have s3 : ∀ (es : List (Txt × PVal)), (∀ e ∈ es, Plain e.1 ∧ ReadsAs rt sf e.2 (rd e.2) ∧
      rt.validUnits (cellText sf e.2) = false ∧ Dict.get? md (String.ofList e.1) = none ∧
      String.ofList e.1 ∈ gs) → ∀ s : DeckState,
      (es.map (guessRow sf)).foldlM (deckLine db prt rt md gs) s = .ok { s with guesses :=
        (es.foldl (fun d e => Dict.set d (String.ofList e.1) (rd e.2)) s.guesses) } := by
    intro es
    induction es with
    | nil => intro _ s; rfl
    | cons e es ih =>
      intro he s
      obtain ⟨h1, h2, h3, h4, h5⟩ := he e (by simp)
      rw [List.map_cons, List.foldlM_cons, guess_line db prt md gs s e (rd e.2) h1 h2 h3 h4 h5]
      exact ih (fun e he' => he e (List.mem_cons_of_mem _ he')) _
  have s4 : ∀ s, ((sortEntries v.unused).map (unusedRow sf)).foldlM (deckLine db prt rt md gs) s = .ok s := by
    intro s
    apply foldlM_skip
    intro l hl t
    obtain ⟨e, he, rfl⟩ := List.mem_map.1 hl
    exact unused_line db prt md gs t e (hu e ((sortEntries_perm _).subset he))
  have n1 : [csvRow [], csvRow ["# Input Values".toList]].foldlM (deckLine db prt rt md gs) st = .ok st :=
    foldlM_skip _ _ _ (hsec " Input Values".toList (by decide))
  have n3 : ∀ s, [csvRow [], csvRow ["# Unconverted Values".toList]].foldlM (deckLine db prt rt md gs) s = .ok s :=
    fun s => foldlM_skip _ _ _ (hsec " Unconverted Values".toList (by decide))
  have hi' : ∀ e ∈ sortEntries v.input, InputOk rt sf md rd e := fun e he => hi e ((sortEntries_perm _).subset he)
  unfold fileLines
  simp only [List.foldlM_append, s1, n1, bind, Except.bind, s2 _ hi']
  cases hf : (sortEntries v.input).foldlM (readInput db prt md rd) st.values with
  | error x => rfl
  | ok vals =>
    cases gasp with
    | false =>
      have e : (if false = true then [csvRow [], csvRow ["# Initialization Guesses".toList]] ++
        (sortEntries v.guesses).map (guessRow sf) else []) = ([] : List Txt) := rfl
      simp only [e, List.foldlM_nil, pure, Except.pure, n3, s4]
      rfl
    | true =>
      have n2 : ∀ s, [csvRow [], csvRow ["# Initialization Guesses".toList]].foldlM (deckLine db prt rt md gs) s = .ok s :=
        fun s => foldlM_skip _ _ _ (hsec " Initialization Guesses".toList (by decide))
      have h3 := s3 (sortEntries v.guesses) (fun e he => hg rfl e ((sortEntries_perm _).subset he))
      simp only [if_true, List.foldlM_append, n2, bind, Except.bind, h3, n3, s4]

/-! ## Which values survive -/

/-- Truth values survive. -/
theorem reads_bool (b : Bool) (h1 : rt.pyInt "True".toList = none) (h2 : rt.pyInt "False".toList = none) :
    ReadsAs rt sf (.bool b) (.bool b) := by
  have e1 : stripBy (fun c => c = '[' || c = ']') "True".toList = "True".toList := by decide
  have e2 : stripBy (fun c => c = '[' || c = ']') "False".toList = "False".toList := by decide
  cases b
  · refine ⟨(⟨by decide, ⟨by decide, by decide⟩, by decide⟩ : Plain "False".toList), ?_⟩
    exact (convertEntry_spec rt _ e2).2.2.2.1 (by decide) h2 (by decide)
  · refine ⟨(⟨by decide, ⟨by decide, by decide⟩, by decide⟩ : Plain "True".toList), ?_⟩
    exact (convertEntry_spec rt _ e1).2.2.1 (by decide) h1 (by decide)

/-- A float whose text has a point survives. -/
theorem reads_float (q : ℚ) (hp : Plain (sf q)) (hb : stripBy (fun c => c = '[' || c = ']') (sf q) = sf q)
    (hd : '.' ∈ sf q) (hq : rt.pyFloat (sf q) = some q) : ReadsAs rt sf (.float q) (.float q) :=
  ⟨hp, (convertEntry_spec rt _ hb).2.1 q hd hq⟩

/-- An integer survives. -/
theorem reads_int (i : Int) (hp : Plain (toString i).toList)
    (hb : stripBy (fun c => c = '[' || c = ']') (toString i).toList = (toString i).toList)
    (hd : '.' ∉ (toString i).toList) (hq : rt.pyInt (toString i).toList = some i) : ReadsAs rt sf (.int i) (.int i) :=
  ⟨hp, (convertEntry_spec rt _ hb).1 i hd hq⟩

/-- **C142 violated (small numbers).** A float that is written with an exponent and no point, such as `1e-05`, is read
back as text. -/
theorem float_exponent_violated (q : ℚ) (hp : Plain (sf q)) (hb : stripBy (fun c => c = '[' || c = ']') (sf q) = sf q)
    (hd : '.' ∉ sf q) (hi : rt.pyInt (sf q) = none) (h1 : lower (sf q) ≠ "true".toList)
    (h2 : lower (sf q) ≠ "false".toList) : ReadsAs rt sf (.float q) (.str (String.ofList (sf q))) :=
  ⟨hp, (convertEntry_spec rt _ hb).2.2.2.2 (fun _ => hi) (fun h => absurd h hd) h1 h2⟩

/-- **C142 violated (first element missing).** When the deck gives the second element of a list and not the first, the
hole is written as an empty field and disappears: all elements move one place forward. -/
theorem hole_dropped_violated (n : Txt) (vs : List PVal) (u : String) (hn : Plain n)
    (hv : ∀ v ∈ vs, Plain (cellText sf v)) (hu : Plain u.toList) :
    deckTokens (inputRow sf (n, .none :: vs, u)) = n :: vs.map (cellText sf) ++ [u.toList] := by
  have key : ∀ cells : List Txt, cells ≠ [] → (∀ t ∈ cells, Plain t) →
      deckTokens (csvRow (n :: [] :: cells)) = n :: cells := by
    intro cells hne h
    obtain ⟨a, l, rfl⟩ := List.exists_cons_of_ne_nil hne
    have hn' : csvField n = n := csvField_plain (fun c hc => (hn.clean c hc).1)
    have e1 : csvRow (n :: [] :: a :: l) = n ++ ',' :: ',' :: csvRow (a :: l) := by
      have h0 : csvField [] = [] := rfl
      simp [csvRow, joinChar, hn', h0]
    have e2 : csvRow (n :: a :: l) = n ++ ',' :: csvRow (a :: l) := by
      simp [csvRow, joinChar, hn']
    have ht : deckTokens (csvRow (n :: a :: l)) = n :: a :: l := row_tokens (by simp) (by
      intro t ht
      rcases List.mem_cons.1 ht with rfl | ht
      · exact hn
      · exact h t ht)
    rw [← ht, e1, e2]
    have hb : ∀ r : Txt, beforeHash (n ++ ',' :: r) = n ++ ',' :: beforeHash r := by
      intro r
      unfold beforeHash
      rw [List.takeWhile_append_of_pos (by
        intro x hx; simp only [decide_eq_true_eq]; rintro rfl; exact hn.hash hx)]
      rw [List.takeWhile_cons]; rfl
    have hb' : ∀ r : Txt, beforeHash (',' :: r) = ',' :: beforeHash r := by
      intro r; unfold beforeHash; rw [List.takeWhile_cons]; rfl
    unfold deckTokens
    rw [hb, hb, hb', (splitComma_cell n hn.comma _).1, (splitComma_cell n hn.comma _).1]
    have : splitComma (',' :: beforeHash (csvRow (a :: l))) = [] :: splitComma (beforeHash (csvRow (a :: l))) := by
      simp [splitComma]
    rw [this]
    have hs : strip [] = [] := rfl
    simp only [List.map_cons, hs, List.filter_cons]
    simp
  have := key (vs.map (cellText sf) ++ [u.toList]) (by simp) (by
    intro t ht
    simp only [List.mem_append, List.mem_map, List.mem_singleton] at ht
    rcases ht with ⟨v, hv', rfl⟩ | rfl
    · exact hv v hv'
    · exact hu)
  simpa [inputRow, cellText] using this

/-- **C142 violated (comma in the name of the deck).** The second comment names the deck.  If the name contains a comma, the
comment is written in quotes and the whole file can not be read. -/
theorem comment_comma_violated (db : UnitDB) (prt : PyRT) (md : Dict String Meta) (st : DeckState) (gasp : Bool)
    (c : Txt) (t : Txt) (v : Vehicle) (hc : ∀ x ∈ '#' :: c, special x = false) (ht : ',' ∈ t) :
    parseDeck db prt rt md st (fileLines sf gasp ['#' :: c, '#' :: t] v) = .error .indexError := by
  unfold parseDeck fileLines
  simp only [List.map_cons, List.map_nil, List.cons_append, List.nil_append, List.foldlM_cons]
  rw [deckLine_nil db prt md _ st _ (comment_tokens c hc)]
  simp only [bind, Except.bind]
  have : deckLine db prt rt md (Dict.keys st.guesses) st (csvRow ['#' :: t]) = .error .indexError := by
    unfold deckLine
    rw [comment_comma_tokens t ht]
    rfl
  rw [this]

theorem foldlM_error {σ : Type} (f : σ → Txt → Except Err σ) (ls : List Txt) (l : Txt) (hl : l ∈ ls)
    (h : ∀ s, ∃ e, f s l = .error e) (s : σ) : ∃ e, ls.foldlM f s = .error e := by
  induction ls generalizing s with
  | nil => simp at hl
  | cons a ls ih =>
    rw [List.foldlM_cons]
    rcases List.mem_cons.1 hl with rfl | hl
    · obtain ⟨e, he⟩ := h s
      exact ⟨e, by rw [he]; rfl⟩
    · cases hf : f s a with
      | error e => exact ⟨e, rfl⟩
      | ok s' => exact ih hl s'

/-- **C142 violated (assignment without value).** One unused name without a value makes the whole file unreadable. -/
theorem unused_empty_violated (db : UnitDB) (prt : PyRT) (md : Dict String Meta) (st : DeckState) (gasp : Bool)
    (comments : List Txt) (v : Vehicle) (n : Txt) (u : String) (hn : Plain n) (he : (n, [], u) ∈ v.unused) :
    ∃ e, parseDeck db prt rt md st (fileLines sf gasp comments v) = .error e := by
  apply foldlM_error (l := unusedRow sf (n, [], u))
  · unfold fileLines
    apply List.mem_append_right
    exact List.mem_map.2 ⟨_, (sortEntries_perm _).symm.subset he, rfl⟩
  · intro s
    refine ⟨.indexError, ?_⟩
    have : deckTokens (unusedRow sf (n, [], u)) = [n] :=
      row_tokens (cells := [n]) (by simp) (by simpa using hn)
    unfold deckLine
    rw [this]
    rfl

/-- Such an entry is what the converter stores for an assignment without a value of a name that it does not know. -/
theorem store_empty (cv : Conv) (ns name : Txt) (st : Vehicle) (hsk : skipped cv (fullName ns name) = false)
    (hp : '(' ∉ fullName ns name) (hg : fullName ns name ≠ "INPROP.GR".toList) (halts : cv.alts = [])
    (hnew : st.unused.get? (fullName ns name) = none) :
    ∃ st', store rt cv ns name [] st = .ok st' ∧ ∃ u, st'.unused.get? (fullName ns name) = some ([], u) := by
  have hs : splitIndex rt (fullName ns name) = .ok (fullName ns name, none) := splitIndex_plain hp
  have hu : updateName rt cv.alts (fullName ns name) = .ok ([fullName ns name], none) := by
    unfold updateName
    rw [hs, halts]; rfl
  have hr : readData rt [] = (true, [], "") := by simp [readData, splitChar]
  unfold store
  simp only [hsk, hr, hu, bind, Except.bind, if_neg hg, Option.map_none]
  have hst : storeName rt cv (fullName ns name) true [] none (st, "") (fullName ns name) = .ok
      (⟨st.input, st.unused.set (fullName ns name) ([], entryUnits cv.md (fullName ns name) none ""), st.guesses⟩, "") := by
    simp [storeName, setValue, hnew, entryValue, bind, Except.bind]
  simp only [List.foldlM_cons, List.foldlM_nil, hst, bind, Except.bind, pure, Except.pure]
  exact ⟨_, rfl, _, Dict.get?_set_self _ _ _⟩

/-! ## Settings and guesses -/

/-- The settings name the legacy code, whatever the deck said. -/
theorem addSettings_spec (gasp : Bool) (d : LV) :
    (addSettings gasp d).get? eomName = some ([.str (if gasp then "2DOF" else "energy_state")], "unitless") ∧
    (addSettings gasp d).get? massName = some ([.str (if gasp then "GASP" else "FLOPS")], "unitless") ∧
    (addSettings gasp d).get? aeroName = some ([.str (if gasp then "GASP" else "FLOPS")], "unitless") ∧
    ∀ k, k ≠ eomName → k ≠ massName → k ≠ aeroName → (addSettings gasp d).get? k = d.get? k := by
  have h1 : eomName ≠ massName := by decide
  have h2 : eomName ≠ aeroName := by decide
  have h3 : massName ≠ aeroName := by decide
  refine ⟨?_, ?_, ?_, ?_⟩
  · unfold addSettings
    simp only [Dict.get?_set_ne _ _ h2.symm, Dict.get?_set_ne _ _ h1.symm, Dict.get?_set_self]
  · unfold addSettings
    simp only [Dict.get?_set_ne _ _ h3.symm, Dict.get?_set_self]
  · unfold addSettings
    simp only [Dict.get?_set_self]
  · intro k k1 k2 k3
    unfold addSettings
    simp only [Dict.get?_set_ne _ _ k1.symm, Dict.get?_set_ne _ _ k2.symm, Dict.get?_set_ne _ _ k3.symm]

theorem storeDefault_guesses (cv : Conv) (hk : ∀ p ∈ cv.alts, p.1 ∉ guessNames) (d : Txt × Txt) (hd : '(' ∉ (splitChar '.' d.1).headD [])
    {st st' : Vehicle} (h : storeDefault rt cv st d = .ok st') : st'.guesses = st.guesses := by
  unfold storeDefault at h
  split at h
  · rename_i ns name rest e
    rw [e] at hd
    exact guesses_never_set_violated hd hk h
  · cases h

theorem runActs_guesses (cv : Conv) (hk : ∀ p ∈ cv.alts, p.1 ∉ guessNames) (as : List Act)
    (ha : ∀ ns name data, Act.assign ns name data ∈ as → '(' ∉ ns) {st st' : Vehicle}
    (h : runActs (store rt cv) as st = .ok st') : st'.guesses = st.guesses := by
  induction as generalizing st with
  | nil => cases h; rfl
  | cons a as ih =>
    cases a with
    | fail e => cases h
    | assign ns name data =>
      simp only [runActs] at h
      cases hs : store rt cv ns name data st with
      | error e => rw [hs] at h; cases h
      | ok s1 =>
        rw [hs] at h
        rw [ih (fun n m d hm => ha n m d (List.mem_cons_of_mem _ hm)) h]
        exact guesses_never_set_violated (ha ns name data (by simp)) hk hs

/-- **C142 violated (guesses).** The guesses written for a GASP deck are the ones the module started with, all zero,
whatever the deck says.  So the shared dictionary does not leak from one conversion to the next either. -/
theorem convertDeck_guesses_violated (cv : Conv) (hk : ∀ p ∈ cv.alts, p.1 ∉ guessNames) (update : LV → Except Err LV)
    (defaults : List (Txt × Txt)) (hd : ∀ d ∈ defaults, '(' ∉ (splitChar '.' d.1).headD []) (lines : List Txt)
    (ha : ∀ ns name data, Act.assign ns name data ∈ deckActs closed lines → '(' ∉ ns) (g : Dict Txt PVal) (v : Vehicle)
    (h : convertDeck rt cv update defaults lines g = .ok v) : v.guesses = g := by
  unfold convertDeck at h
  have hdef : ∀ (ds : List (Txt × Txt)), (∀ d ∈ ds, '(' ∉ (splitChar '.' d.1).headD []) → ∀ s s1 : Vehicle,
      ds.foldlM (storeDefault rt cv) s = .ok s1 → s1.guesses = s.guesses := by
    intro ds
    induction ds with
    | nil => intro _ s s1 e; cases e; rfl
    | cons d ds ih =>
      intro hds s s1 e
      rw [List.foldlM_cons] at e
      cases hs : storeDefault rt cv s d with
      | error x => rw [hs] at e; cases e
      | ok s2 =>
        rw [hs] at e
        rw [ih (fun d hd => hds d (List.mem_cons_of_mem _ hd)) s2 s1 e]
        exact storeDefault_guesses cv hk d (hds d (by simp)) hs
  cases h1 : defaults.foldlM (storeDefault rt cv) ⟨[], [], g⟩ with
  | error x => rw [h1] at h; cases h
  | ok v1 =>
    rw [h1] at h
    simp only [bind, Except.bind] at h
    cases h2 : parseInputFile (store rt cv) lines v1 with
    | error x => rw [h2] at h; cases h
    | ok v2 =>
      rw [h2] at h
      simp only at h
      cases h3 : update v2.input with
      | error x => rw [h3] at h; cases h
      | ok d =>
        rw [h3] at h
        cases h
        rw [show v2.guesses = v1.guesses from runActs_guesses cv hk _ ha h2]
        exact hdef defaults hd _ _ h1

/-- The settings of every converted file. -/
theorem convertDeck_settings (cv : Conv) (update : LV → Except Err LV) (defaults : List (Txt × Txt)) (lines : List Txt)
    (g : Dict Txt PVal) (v : Vehicle) (h : convertDeck rt cv update defaults lines g = .ok v) :
    v.input.get? eomName = some ([.str (if cv.gasp then "2DOF" else "energy_state")], "unitless") ∧
    v.input.get? massName = some ([.str (if cv.gasp then "GASP" else "FLOPS")], "unitless") ∧
    v.input.get? aeroName = some ([.str (if cv.gasp then "GASP" else "FLOPS")], "unitless") := by
  unfold convertDeck at h
  cases h1 : defaults.foldlM (storeDefault rt cv) ⟨[], [], g⟩ with
  | error x => rw [h1] at h; cases h
  | ok v1 =>
    rw [h1] at h
    simp only [bind, Except.bind] at h
    cases h2 : parseInputFile (store rt cv) lines v1 with
    | error x => rw [h2] at h; cases h
    | ok v2 =>
      rw [h2] at h
      simp only at h
      cases h3 : update v2.input with
      | error x => rw [h3] at h; cases h
      | ok d =>
        rw [h3] at h
        cases h
        obtain ⟨a, b, c, -⟩ := addSettings_spec cv.gasp d
        exact ⟨a, b, c⟩

/-- The deck is read after the defaults: converting defaults followed by a deck is converting the deck starting from the
values of the defaults. -/
theorem convertDeck_order (cv : Conv) (update : LV → Except Err LV) (defaults : List (Txt × Txt)) (lines : List Txt)
    (g : Dict Txt PVal) (v1 v2 : Vehicle) (d : LV)
    (h1 : defaults.foldlM (storeDefault rt cv) ⟨[], [], g⟩ = .ok v1)
    (h2 : parseInputFile (store rt cv) lines v1 = .ok v2) (h3 : update v2.input = .ok d) :
    ∃ v, convertDeck rt cv update defaults lines g = .ok v ∧ v.unused = v2.unused ∧
      ∀ k, k ≠ eomName → k ≠ massName → k ≠ aeroName → v.input.get? k = d.get? k := by
  refine ⟨{ v2 with input := addSettings cv.gasp d }, ?_, rfl, (addSettings_spec cv.gasp d).2.2.2⟩
  unfold convertDeck
  simp only [h1, bind, Except.bind, h2, h3]

/-! ## The path -/

theorem under_absolute {dir : OutPath} (p : OutPath) (hd : dir.absolute = true) : (dir.under p).absolute = true := by
  unfold OutPath.under
  split
  · assumption
  · exact hd

theorem under_of_absolute {dir p : OutPath} (hp : p.absolute = true) : dir.under p = p := by simp [OutPath.under, hp]

/-- Without a name the file is put beside the deck, also when the deck was given by a relative path. -/
theorem outputPath_default (cwd : OutPath) (hcwd : cwd.absolute = true) (isFile : OutPath → Bool) (dir : OutPath)
    (stem : String) (force : Bool) :
    outputPath cwd isFile dir stem none force =
      if isFile ⟨true, (cwd.under dir).parts ++ [stem ++ "_converted.csv"]⟩ && !force then .error .runtimeError
      else .ok ⟨true, (cwd.under dir).parts ++ [stem ++ "_converted.csv"]⟩ := by
  have h1 : (cwd.under dir).absolute = true := under_absolute dir hcwd
  have e : (cwd.under dir).under ⟨false, [stem ++ "_converted.csv"]⟩ =
      ⟨true, (cwd.under dir).parts ++ [stem ++ "_converted.csv"]⟩ := by
    simp [OutPath.under] at h1 ⊢
    simp [h1]
  unfold outputPath
  simp only [e]
  have e1 : ∀ d : OutPath, d.under ⟨true, (cwd.under dir).parts ++ [stem ++ "_converted.csv"]⟩ =
    ⟨true, (cwd.under dir).parts ++ [stem ++ "_converted.csv"]⟩ := fun d => under_of_absolute rfl
  simp only [e1, ite_self]

/-- An absolute name is used as it is. -/
theorem outputPath_absolute (cwd : OutPath) (isFile : OutPath → Bool) (dir p : OutPath) (stem : String) (force : Bool)
    (hp : p.absolute = true) :
    outputPath cwd isFile dir stem (some p) force = if isFile p && !force then .error .runtimeError else .ok p := by
  unfold outputPath
  simp only [under_of_absolute hp, ite_self]

/-- A relative name means the file of that name in the working directory if there is one, and otherwise the name beside
the deck. -/
theorem outputPath_relative (cwd : OutPath) (isFile : OutPath → Bool) (dir p : OutPath) (stem : String) (force : Bool) :
    outputPath cwd isFile dir stem (some p) force =
      if isFile (cwd.under p) then (if force then .ok (cwd.under p) else .error .runtimeError)
      else if isFile (cwd.under (dir.under p)) && !force then .error .runtimeError
      else .ok (cwd.under (dir.under p)) := by
  unfold outputPath
  by_cases h : isFile (cwd.under p) = true
  · simp only [h, if_true]
    cases force <;> simp
  · simp only [h, if_false, Bool.false_eq_true]

theorem not_file_of_ok (isFile : OutPath → Bool) (q p : OutPath)
    (h : (if isFile q && !false then Except.error Err.runtimeError else .ok q) = .ok p) : isFile p = false := by
  cases hq : isFile q with
  | true => rw [hq] at h; cases h
  | false =>
    rw [hq] at h
    cases h
    exact hq

/-- **C142 (no loss).** A call that succeeds changes one file.  Without `force` that file did not exist before. -/
theorem fortranToAviary_frame (cv : Conv) (named : Bool) (update : LV → Except Err LV) (defaults : List (Txt × Txt))
    (comments lines : List Txt) (cwd dir : OutPath) (stem : String) (given : Option OutPath) (force : Bool)
    (g : Dict Txt PVal) (fs fs' : Dict OutPath (List Txt))
    (h : fortranToAviary sf rt cv named update defaults comments lines cwd dir stem given force g fs = .ok fs') :
    ∃ p v, convertDeck rt cv update defaults lines g = .ok v ∧ fs'.get? p = some (fileLines sf cv.gasp comments v) ∧
      (∀ q, q ≠ p → fs'.get? q = fs.get? q) ∧ (force = false → fs.get? p = none) ∧ named = true := by
  unfold fortranToAviary at h
  cases named with
  | false => simp at h
  | true =>
    simp only [Bool.not_true, Bool.false_eq_true, if_false] at h
    cases hv : convertDeck rt cv update defaults lines g with
    | error x => rw [hv] at h; cases h
    | ok v =>
      rw [hv] at h
      simp only [bind, Except.bind] at h
      cases hp : outputPath cwd fs.has dir stem given force with
      | error x => rw [hp] at h; cases h
      | ok p =>
        rw [hp] at h
        cases h
        refine ⟨p, v, rfl, Dict.get?_set_self _ _ _, fun q hq => Dict.get?_set_ne _ _ hq.symm, ?_, rfl⟩
        rintro rfl
        have hf : fs.has p = false := by
          cases given <;> exact not_file_of_ok fs.has _ _ hp
        simpa [Dict.has] using hf

/-- Without `force` an existing file is refused. -/
theorem fortranToAviary_refuses (cv : Conv) (update : LV → Except Err LV) (defaults : List (Txt × Txt))
    (comments lines : List Txt) (cwd dir : OutPath) (stem : String) (given : Option OutPath) (g : Dict Txt PVal)
    (fs : Dict OutPath (List Txt)) (v : Vehicle) (hv : convertDeck rt cv update defaults lines g = .ok v) (p : OutPath)
    (hp : outputPath cwd fs.has dir stem given true = .ok p) (hex : fs.has p = true) :
    fortranToAviary sf rt cv true update defaults comments lines cwd dir stem given false g fs = .error .runtimeError := by
  unfold fortranToAviary
  simp only [Bool.not_true, Bool.false_eq_true, if_false, hv, bind, Except.bind]
  unfold outputPath at hp ⊢
  dsimp only at hp ⊢
  simp only [Bool.not_true, Bool.and_false, Bool.false_eq_true, if_false, Except.ok.injEq] at hp
  subst hp
  rw [hex]
  rfl

/-! ## A small file -/

example : fileLines (fun _ => "1.5".toList) false ["# a".toList]
    ⟨[("b".toList, [.float (3 / 2), .int 2], "ft"), ("a".toList, [.str "x"], "unitless")], [], []⟩ =
    ["# a\r\n".toList, "\r\n".toList, "# Input Values\r\n".toList, "a,x,unitless\r\n".toList, "b,1.5,2,ft\r\n".toList,
     "\r\n".toList, "# Unconverted Values\r\n".toList] := by decide +kernel

example : Plain "aircraft:wing:span".toList :=
  ⟨by decide, ⟨by decide, by decide⟩, by decide⟩

example : csvRow ["# from a,b.dat".toList] = "\"# from a,b.dat\"\r\n".toList := by decide

example : outputPath ⟨true, ["w"]⟩ (fun p => p = ⟨true, ["w", "x.csv"]⟩) ⟨false, ["d"]⟩ "deck" (some ⟨false, ["x.csv"]⟩) true =
    .ok ⟨true, ["w", "x.csv"]⟩ := rfl

example : outputPath ⟨true, ["w"]⟩ (fun _ => false) ⟨false, ["d"]⟩ "deck" (some ⟨false, ["x.csv"]⟩) false =
    .ok ⟨true, ["w", "d", "x.csv"]⟩ := rfl

theorem span_plain : Plain "aircraft:wing:span".toList := ⟨by decide, ⟨by decide, by decide⟩, by decide⟩

/-- The hypotheses of the round trip hold of a wing span of 1.5 ft. -/
example (md : Dict String Meta) (hk : (Dict.get? md "aircraft:wing:span").isSome) :
    InputOk demoRT (fun _ => "1.5".toList) md id ("aircraft:wing:span".toList, [.float (3 / 2)], "ft") where
  name := span_plain
  known := by simpa using hk
  vals := by simp
  reads := by
    intro v hv
    rw [List.mem_singleton] at hv
    subst hv
    exact reads_float (3 / 2) ⟨by decide, ⟨by decide, by decide⟩, by decide⟩ (by decide) (by decide) rfl
  units := ⟨by decide, ⟨by decide, by decide⟩, by decide⟩
  valid := by decide

/-- The hypotheses of the exponent finding hold of `1e-05`. -/
example : ReadsAs { demoRT with pyInt := fun _ => none } (fun _ => "1e-05".toList) (.float (1 / 100000)) (.str "1e-05") :=
  float_exponent_violated (sf := fun _ => "1e-05".toList) (1 / 100000) ⟨by decide, ⟨by decide, by decide⟩, by decide⟩ (by decide)
    (by decide) rfl (by decide) (by decide)

end Verif.Fortran
