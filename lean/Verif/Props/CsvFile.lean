import Verif.Model.CsvFile
import Verif.Props.InputDeck
import Mathlib.Data.List.Basic
import Mathlib.Data.List.Nodup

/-! # C11: csv data files -/

namespace Verif

/-! ## Helper lemmas about splitting -/

theorem stripBy_padded (p : Char → Bool) (a w b : Txt) (ha : ∀ c ∈ a, p c = true) (hb : ∀ c ∈ b, p c = true)
    (h1 : ∀ c, w.head? = some c → p c = false) (h2 : ∀ c, w.getLast? = some c → p c = false) :
    stripBy p (a ++ w ++ b) = w := by
  unfold stripBy
  cases w with
  | nil =>
    have : (a ++ [] ++ b).dropWhile p = [] := by
      have e := dropWhile_pad (p := p) (a ++ b) [] (by
        intro c hc
        rcases List.mem_append.1 hc with hc | hc
        · exact ha c hc
        · exact hb c hc) (by simp)
      simpa using e
    rw [this]; rfl
  | cons x r =>
    rw [List.append_assoc, dropWhile_pad a ((x :: r) ++ b) ha (by
      intro c hc; simp at hc; subst hc; exact h1 _ rfl)]
    rw [List.reverse_append, dropWhile_pad b.reverse (x :: r).reverse (by simpa using hb) (by
      intro c hc; rw [List.head?_reverse] at hc; exact h2 c hc)]
    exact List.reverse_reverse _

/-- Put a text in front of the first piece. -/
def prep (a : Txt) : List Txt → List Txt
  | [] => [a]
  | h :: t => (a ++ h) :: t

theorem splitP_append (p : Char → Bool) (a x : Txt) (ha : ∀ c ∈ a, p c = false) :
    splitP p (a ++ x) = prep a (splitP p x) := by
  induction a with
  | nil =>
    rw [List.nil_append]
    cases h : splitP p x with
    | nil =>
      cases x with
      | nil => simp [splitP] at h
      | cons c cs =>
        simp only [splitP] at h
        split at h
        · simp at h
        · cases hs : splitP p cs <;> simp [hs] at h
    | cons u v => rfl
  | cons c a ih =>
    rw [List.cons_append]
    simp only [splitP, ha c (by simp), ih (fun c hc => ha c (List.mem_cons_of_mem _ hc))]
    cases splitP p x <;> simp [prep]

theorem splitRaw_append (a x : Txt) (ha : ∀ c ∈ a, c ≠ ';' ∧ c ≠ ',') :
    splitRaw (a ++ x) = prep a (splitRaw x) := by
  induction a with
  | nil =>
    rw [List.nil_append]
    cases h : splitRaw x with
    | nil =>
      cases x with
      | nil => simp [splitRaw] at h
      | cons c cs =>
        simp only [splitRaw] at h
        split at h
        · simp at h
        · cases hs : splitRaw cs <;> simp [hs] at h
    | cons u v => rfl
  | cons c a ih =>
    obtain ⟨h1, h2⟩ := ha c (by simp)
    rw [List.cons_append]
    simp only [splitRaw, h1, h2, ih (fun c hc => ha c (List.mem_cons_of_mem _ hc))]
    cases splitRaw x <;> simp [prep]

theorem nextClose_append (a x : Txt) (ha : ∀ c ∈ a, c ≠ '(' ∧ c ≠ ')') : nextClose (a ++ x) = nextClose x := by
  induction a with
  | nil => rfl
  | cons c a ih =>
    obtain ⟨h1, h2⟩ := ha c (by simp)
    have := ih (fun c hc => ha c (List.mem_cons_of_mem _ hc))
    unfold nextClose at this ⊢
    rw [List.cons_append, List.find?_cons_of_neg (by simp [h1, h2])]
    exact this

theorem splitRaw_inner (a x : Txt) (ha : ∀ c ∈ a, c ≠ '(' ∧ c ≠ ')') :
    splitRaw (a ++ ')' :: x) = prep (a ++ [')']) (splitRaw x) := by
  induction a with
  | nil =>
    rw [List.nil_append, List.nil_append]
    exact splitRaw_append [')'] x (by simp)
  | cons c a ih =>
    have ha' : ∀ c ∈ a, c ≠ '(' ∧ c ≠ ')' := fun c hc => ha c (List.mem_cons_of_mem _ hc)
    have hn : nextClose (a ++ ')' :: x) = true := by
      rw [nextClose_append a _ ha']; simp [nextClose]
    rw [List.cons_append]
    simp only [splitRaw, hn, ih ha']
    cases splitRaw x <;> simp [prep]

/-- Shape of a written cell: text without delimiters, optionally followed by one parenthesised group. -/
inductive CellShape : Txt → Prop
  | plain {a} : (∀ c ∈ a, c ≠ ';' ∧ c ≠ ',' ∧ c ≠ '(' ∧ c ≠ ')') → CellShape a
  | group {a b} : (∀ c ∈ a, c ≠ ';' ∧ c ≠ ',' ∧ c ≠ '(' ∧ c ≠ ')') → (∀ c ∈ b, c ≠ '(' ∧ c ≠ ')') →
      CellShape (a ++ '(' :: (b ++ [')']))

theorem CellShape.pad {w : Txt} (h : CellShape w) (n : Nat) : CellShape (padded n w) := by
  have hsp : ∀ c ∈ List.replicate n ' ', c ≠ ';' ∧ c ≠ ',' ∧ c ≠ '(' ∧ c ≠ ')' := by
    intro c hc; rw [(List.mem_replicate.1 hc).2]; decide
  cases h with
  | plain ha =>
    refine .plain ?_
    intro c hc
    rcases List.mem_append.1 hc with h | h
    · exact hsp c h
    · exact ha c h
  | group ha hb =>
    have e : ∀ a b : Txt, padded n (a ++ '(' :: (b ++ [')'])) = (List.replicate n ' ' ++ a) ++ '(' :: (b ++ [')']) := by
      intro a b; simp [padded]
    rw [e]
    refine .group ?_ hb
    intro c hc
    rcases List.mem_append.1 hc with h | h
    · exact hsp c h
    · exact ha c h

theorem splitRaw_cell {w : Txt} (h : CellShape w) (x : Txt) : splitRaw (w ++ x) = prep w (splitRaw x) := by
  cases h with
  | plain ha => exact splitRaw_append _ x (fun c hc => ⟨(ha c hc).1, (ha c hc).2.1⟩)
  | @group a b ha hb =>
    have e : a ++ '(' :: (b ++ [')']) ++ x = (a ++ ['(']) ++ (b ++ ')' :: x) := by simp
    rw [e, splitRaw_append (a ++ ['(']) _ (by
      intro c hc
      rcases List.mem_append.1 hc with h | h
      · exact ⟨(ha c h).1, (ha c h).2.1⟩
      · simp at h; subst h; decide), splitRaw_inner b x hb]
    cases splitRaw x <;> simp [prep]

theorem nextClose_cell {w : Txt} (h : CellShape w) (x : Txt) (hx : nextClose x = false) :
    nextClose (w ++ x) = false := by
  cases h with
  | plain ha => rw [nextClose_append _ _ (fun c hc => ⟨(ha c hc).2.2.1, (ha c hc).2.2.2⟩)]; exact hx
  | @group a b ha hb =>
    rw [List.append_assoc, nextClose_append a _ (fun c hc => ⟨(ha c hc).2.2.1, (ha c hc).2.2.2⟩)]
    simp [nextClose]

theorem nextClose_join (ws : List Txt) (h : ∀ w ∈ ws, CellShape w) : nextClose (joinComma ws) = false := by
  induction ws with
  | nil => simp [joinComma, nextClose]
  | cons w ws ih =>
    cases ws with
    | nil =>
      have := nextClose_cell (h w (by simp)) [] (by simp [nextClose])
      simpa [joinComma] using this
    | cons w' ws =>
      have hi := ih (fun x hx => h x (List.mem_cons_of_mem _ hx))
      rw [joinComma]
      · apply nextClose_cell (h w (by simp))
        have := nextClose_append [',', ' '] (joinComma (w' :: ws)) (by
          intro c hc; simp at hc; rcases hc with rfl | rfl <;> decide)
        simpa [hi] using this
      · exact fun e => by cases e

/-- A line of well-shaped cells joined by `", "` splits back into the cells. -/
theorem splitRaw_join (w : Txt) (ws : List Txt) (h : ∀ x ∈ w :: ws, CellShape x) :
    splitRaw (joinComma (w :: ws)) = w :: ws.map (fun x => ' ' :: x) := by
  induction ws generalizing w with
  | nil =>
    have := splitRaw_cell (h w (by simp)) []
    simpa [joinComma, splitRaw, prep] using this
  | cons w' ws ih =>
    have hws : ∀ x ∈ w' :: ws, CellShape x := fun x hx => h x (List.mem_cons_of_mem _ hx)
    rw [joinComma]
    · rw [splitRaw_cell (h w (by simp))]
      have hn : nextClose (' ' :: joinComma (w' :: ws)) = false := by
        have := nextClose_append [' '] (joinComma (w' :: ws)) (by simp)
        rw [nextClose_join _ hws] at this; simpa using this
      have h1 : splitRaw (',' :: ' ' :: joinComma (w' :: ws)) = [] :: splitRaw (' ' :: joinComma (w' :: ws)) := by
        rw [splitRaw]; simp [hn]
      have h2 : splitRaw (' ' :: joinComma (w' :: ws)) = prep [' '] (splitRaw (joinComma (w' :: ws))) := by
        simpa using splitRaw_append [' '] (joinComma (w' :: ws)) (by simp)
      rw [h1, h2, ih w' hws]
      simp [prep]
    · exact fun e => by cases e

theorem dropWhile_blank_padded (n : Nat) (w : Txt) (hw : Trimmed w) :
    (padded n w).dropWhile blank = w :=
  dropWhile_pad _ _ (by intro c hc; rw [(List.mem_replicate.1 hc).2]; rfl) hw.1

theorem joinComma_getLast (ws : List Txt) (hne : ws ≠ []) (h : ∀ w ∈ ws, w ≠ []) :
    (joinComma ws).getLast? = (ws.getLast hne).getLast? := by
  induction ws with
  | nil => exact absurd rfl hne
  | cons w ws ih =>
    cases ws with
    | nil => simp [joinComma]
    | cons w' ws =>
      have hi := ih (by simp) (fun x hx => h x (List.mem_cons_of_mem _ hx))
      rw [List.getLast_cons (by simp), ← hi, joinComma]
      · have hj : joinComma (w' :: ws) ≠ [] := by
          have := h w' (by simp)
          cases ws <;> simp [joinComma, this]
        have : ∀ (a b : Txt), b ≠ [] → (a ++ b).getLast? = b.getLast? := by
          intro a b hb; rw [List.getLast?_append]
          rw [List.getLast?_eq_some_getLast hb]; rfl
        rw [this w _ (by simp)]
        exact this [',', ' '] _ hj
      · exact fun e => by cases e

/-- **C11 (splitting).** A written line, whatever the column padding, is split back into exactly the cells that
were written: commas between a column's units and its input/output label do not split. -/
theorem splitDelim_join (cells : List Txt) (w : Nat → Nat) (hne : cells ≠ [])
    (hs : ∀ c ∈ cells, CellShape c) (ht : ∀ c ∈ cells, Trimmed c) (hnn : ∀ c ∈ cells, c ≠ []) :
    splitDelim (strip (joinComma (cells.mapIdx (fun j c => padded (w j) c)))) = cells := by
  cases cells with
  | nil => exact absurd rfl hne
  | cons c cs =>
    rw [List.mapIdx_cons]
    set rest := cs.mapIdx (fun j x => padded (w (j + 1)) x) with hrest
    have hrs : ∀ x ∈ rest, CellShape x ∧ x ≠ [] := by
      intro x hx
      obtain ⟨j, hj, rfl⟩ := List.mem_mapIdx.1 hx
      have hm : cs[j] ∈ c :: cs := List.mem_cons_of_mem _ (List.getElem_mem _)
      refine ⟨(hs _ hm).pad _, ?_⟩
      have := hnn _ hm
      simp [padded, this]
    have hpad : joinComma (padded (w 0) c :: rest) = List.replicate (w 0) ' ' ++ joinComma (c :: rest) ++ [] := by
      cases rest <;> simp [joinComma, padded]
    rw [hpad]
    have hstrip : strip (List.replicate (w 0) ' ' ++ joinComma (c :: rest) ++ []) = joinComma (c :: rest) := by
      apply strip_padded
      · intro x hx; rw [(List.mem_replicate.1 hx).2]; rfl
      · simp
      · constructor
        · intro x hx
          have hc0 := hnn c (by simp)
          cases c with
          | nil => exact absurd rfl hc0
          | cons y ys =>
            apply (ht (y :: ys) (by simp)).1
            have hh : (joinComma ((y :: ys) :: rest)).head? = some y := by
              generalize rest = l
              cases l <;> simp [joinComma]
            rw [hh] at hx; simpa using hx
        · intro x hx
          rw [joinComma_getLast (c :: rest) (by simp) (by
            intro z hz
            rcases List.mem_cons.1 hz with rfl | hz
            · exact hnn _ (by simp)
            · exact (hrs z hz).2)] at hx
          by_cases hcs : cs = []
          · subst hcs
            have hr0 : rest = [] := by rw [hrest]; rfl
            simp only [hr0, List.getLast_singleton] at hx
            exact (ht c (by simp)).2 x hx
          · have hrne : rest ≠ [] := by
              rw [hrest]; intro e
              have := congrArg List.length e
              simp at this; exact hcs this
            rw [List.getLast_cons hrne] at hx
            obtain ⟨j, hj, hjx⟩ := List.mem_mapIdx.1 (List.getLast_mem hrne)
            rw [← hjx] at hx
            have hm : cs[j] ∈ c :: cs := List.mem_cons_of_mem _ (List.getElem_mem _)
            have hx' : (cs[j]).getLast? = some x := by
              rw [padded, List.getLast?_append] at hx
              rw [List.getLast?_eq_some_getLast (hnn _ hm)] at hx ⊢; simpa using hx
            exact (ht _ hm).2 x hx'
    rw [hstrip]
    unfold splitDelim
    rw [splitRaw_join c rest (by
      intro x hx
      rcases List.mem_cons.1 hx with rfl | hx
      · exact hs _ (by simp)
      · exact (hrs x hx).1)]
    simp only [List.map_map]
    congr 1
    apply List.ext_getElem
    · simp [hrest]
    · intro n h1 h2
      simp only [List.getElem_map, Function.comp]
      have e : rest[n]'(by simpa using h1) = padded (w (n + 1)) cs[n] := by simp [hrest]
      rw [e]
      have : (' ' :: padded (w (n + 1)) cs[n]) = padded (w (n + 1) + 1) cs[n] := by
        simp [padded, List.replicate_succ]
      rw [this]
      exact dropWhile_blank_padded _ _ (ht _ (List.mem_cons_of_mem _ (List.getElem_mem _)))

/-! ## Header cells -/

/-- Text that survives header parsing: non-empty, no blanks, delimiters, parentheses or comment sign. -/
structure Word (w : Txt) : Prop where
  ne : w ≠ []
  chars : ∀ c ∈ w, blank c = false ∧ c ≠ ';' ∧ c ≠ ',' ∧ c ≠ '(' ∧ c ≠ ')' ∧ c ≠ '#'

theorem Word.strip_paren {w : Txt} (h : Word w) (a b : Txt) (ha : ∀ c ∈ a, c = ')' ∨ c = ' ')
    (hb : ∀ c ∈ b, c = ')' ∨ c = ' ') : stripBy (fun c => c = ')' || c = ' ') (a ++ w ++ b) = w := by
  apply stripBy_padded
  · intro c hc; rcases ha c hc with rfl | rfl <;> simp
  · intro c hc; rcases hb c hc with rfl | rfl <;> simp
  all_goals
    intro c hc
    have hm : c ∈ w := by first | exact List.mem_of_mem_head? hc | exact List.mem_of_mem_getLast? hc
    obtain ⟨h1, _, _, _, h5, _⟩ := h.chars c hm
    have : c ≠ ' ' := by rintro rfl; simp [blank] at h1
    simp [h5, this]

theorem word_name {w : Txt} (h : Word w) : w.map (fun c => if blank c then '_' else c) = w := by
  conv_rhs => rw [← List.map_id w]
  apply List.map_congr_left
  intro c hc
  simp [(h.chars c hc).1]

theorem splitP_word (w x : Txt) (h : Word w) :
    splitP (fun c => c = '(' || c = ',') (w ++ x) = prep w (splitP (fun c => c = '(' || c = ',') x) := by
  apply splitP_append
  intro c hc
  obtain ⟨_, _, h3, h4, _⟩ := h.chars c hc
  simp [h3, h4]

theorem word_input : Word inputLbl := ⟨by decide, by decide⟩
theorem word_output : Word outputLbl := ⟨by decide, by decide⟩

/-- **C11 (header cell round trip).** Parsing a written header cell gives back the name and exactly the written
information. -/
theorem headerParts_text (name units : Txt) (label : Option Bool) (hn : Word name) (hu : Word units) :
    headerParts (headerText name units label) = (name, infoParts units label) := by
  have lblWord : ∀ p ∈ infoParts units label, Word p := by
    intro p hp
    unfold infoParts at hp
    rcases List.mem_append.1 hp with h | h
    · split at h
      · simp at h
      · simp at h; subst h; exact hu
    · cases label with
      | none => simp at h
      | some b => cases b <;> simp at h <;> subst h <;> [exact word_output; exact word_input]
  have hlen : infoParts units label = [] ∨ (∃ p, infoParts units label = [p]) ∨
      ∃ p q, infoParts units label = [p, q] := by
    unfold infoParts
    by_cases h : units = unitless
    · cases label with
      | none => left; simp [h]
      | some b => right; left; cases b <;> simp [h]
    · cases label with
      | none => right; left; simp [h]
      | some b => right; right; cases b <;> simp [h]
  rcases hlen with h | ⟨p, h⟩ | ⟨p, q, h⟩
  · unfold headerText headerParts
    rw [h]
    have e : splitP (fun c => c = '(' || c = ',') name = [name] := by
      have := splitP_word name [] hn
      simpa [splitP, prep] using this
    have e2 := hn.strip_paren [] [] (by simp) (by simp)
    simp only [List.append_nil, List.nil_append] at e2
    rw [e]
    simp only [List.map_cons, List.map_nil, e2, word_name hn]
  · have hp : Word p := lblWord p (by rw [h]; simp)
    unfold headerText headerParts
    rw [h]
    have e : splitP (fun c => c = '(' || c = ',') (name ++ ' ' :: '(' :: (joinComma [p] ++ [')']))
        = [name ++ [' '], p ++ [')']] := by
      rw [splitP_word _ _ hn]
      have e1 : splitP (fun c => c = '(' || c = ',') (p ++ [')']) = [p ++ [')']] := by
        rw [splitP_word _ _ hp]; simp [splitP, prep]
      simp [joinComma, splitP, e1, prep]
    have e2 := hn.strip_paren [] [' '] (by simp) (by simp)
    have e3 := hp.strip_paren [] [')'] (by simp) (by simp)
    simp only [List.nil_append] at e2 e3
    rw [e]
    simp only [List.map_cons, List.map_nil, e2, e3, word_name hn]
  · have hp : Word p := lblWord p (by rw [h]; simp)
    have hq : Word q := lblWord q (by rw [h]; simp)
    unfold headerText headerParts
    rw [h]
    have e : splitP (fun c => c = '(' || c = ',') (name ++ ' ' :: '(' :: (joinComma [p, q] ++ [')']))
        = [name ++ [' '], p, ' ' :: (q ++ [')'])] := by
      rw [splitP_word _ _ hn]
      have e1 : splitP (fun c => c = '(' || c = ',') (q ++ [')']) = [q ++ [')']] := by
        rw [splitP_word _ _ hq]; simp [splitP, prep]
      have e1' : splitP (fun c => c = '(' || c = ',') (' ' :: (q ++ [')'])) = [' ' :: (q ++ [')'])] := by
        simp [splitP, e1]
      have e2 : splitP (fun c => c = '(' || c = ',') (p ++ (',' :: ' ' :: (q ++ [')'])))
          = [p, ' ' :: (q ++ [')'])] := by
        rw [splitP_word _ _ hp]
        rw [splitP]
        simp only [decide_true, Bool.or_true, if_true, e1']
        simp [prep]
      have e3 : joinComma [p, q] ++ [')'] = p ++ (',' :: ' ' :: (q ++ [')'])) := by simp [joinComma]
      rw [e3]
      simp [splitP, e2, prep]
    have e2 := hn.strip_paren [] [' '] (by simp) (by simp)
    have e3 := hp.strip_paren [] [] (by simp) (by simp)
    have e4 := hq.strip_paren [' '] [')'] (by simp) (by simp)
    simp only [List.nil_append, List.append_nil, List.cons_append] at e2 e3 e4
    rw [e]
    simp only [List.map_cons, List.map_nil, e2, e3, e4, word_name hn]

theorem headerText_shape (name units : Txt) (label : Option Bool) (hn : Word name) (hu : Word units) :
    CellShape (headerText name units label) ∧ Trimmed (headerText name units label) ∧
    headerText name units label ≠ [] ∧ '#' ∉ headerText name units label := by
  have hnc : ∀ c ∈ name, c ≠ ';' ∧ c ≠ ',' ∧ c ≠ '(' ∧ c ≠ ')' := by
    intro c hc; obtain ⟨_, a, b, d, e, _⟩ := hn.chars c hc; exact ⟨a, b, d, e⟩
  have lblWord : ∀ p ∈ infoParts units label, Word p := by
    intro p hp
    unfold infoParts at hp
    rcases List.mem_append.1 hp with h | h
    · split at h
      · simp at h
      · simp at h; subst h; exact hu
    · cases label with
      | none => simp at h
      | some b => cases b <;> simp at h <;> subst h <;> [exact word_output; exact word_input]
  have hjoin : ∀ ps : List Txt, (∀ p ∈ ps, Word p) →
      ∀ c ∈ joinComma ps, c ≠ '(' ∧ c ≠ ')' ∧ c ≠ '#' := by
    intro ps
    induction ps with
    | nil => intro _ c hc; simp [joinComma] at hc
    | cons p ps ih =>
      intro h c hc
      cases ps with
      | nil =>
        simp only [joinComma] at hc
        obtain ⟨_, _, _, d, e, f⟩ := (h p (by simp)).chars c hc
        exact ⟨d, e, f⟩
      | cons q ps =>
        rw [joinComma] at hc
        · simp only [List.mem_append, List.mem_cons] at hc
          rcases hc with hc | rfl | rfl | hc
          · obtain ⟨_, _, _, d, e, f⟩ := (h p (by simp)).chars c hc
            exact ⟨d, e, f⟩
          · decide
          · decide
          · exact ih (fun x hx => h x (List.mem_cons_of_mem _ hx)) c hc
        · exact fun e => by cases e
  obtain ⟨n0, ns, hns⟩ := List.exists_cons_of_ne_nil hn.ne
  have hn0 : blank n0 = false := (hn.chars n0 (by rw [hns]; simp)).1
  unfold headerText
  cases hi : infoParts units label with
  | nil =>
    refine ⟨.plain hnc, ⟨?_, ?_⟩, hn.ne, ?_⟩
    · intro c hc; exact (hn.chars c (List.mem_of_mem_head? hc)).1
    · intro c hc; exact (hn.chars c (List.mem_of_mem_getLast? hc)).1
    · intro hc; exact (hn.chars _ hc).2.2.2.2.2 rfl
  | cons p ps =>
    simp only
    have hj := hjoin (p :: ps) (by rw [← hi]; exact lblWord)
    have hre : name ++ ' ' :: '(' :: (joinComma (p :: ps) ++ [')'])
        = (name ++ [' ']) ++ '(' :: (joinComma (p :: ps) ++ [')']) := by simp
    refine ⟨?_, ⟨?_, ?_⟩, by simp, ?_⟩
    · rw [hre]
      refine .group ?_ (fun c hc => ⟨(hj c hc).1, (hj c hc).2.1⟩)
      intro c hc
      rcases List.mem_append.1 hc with h | h
      · exact hnc c h
      · simp at h; subst h; decide
    · intro c hc; rw [hns] at hc; simp at hc; subst hc; exact hn0
    · intro c hc
      have : (name ++ ' ' :: '(' :: (joinComma (p :: ps) ++ [')'])).getLast? = some ')' := by
        have e : name ++ ' ' :: '(' :: (joinComma (p :: ps) ++ [')'])
          = (name ++ ' ' :: '(' :: joinComma (p :: ps)) ++ [')'] := by simp
        rw [e, List.getLast?_append]; simp
      rw [this] at hc; cases hc; rfl
    · simp only [List.mem_append, List.mem_cons, List.mem_nil_iff, or_false, not_or]
      refine ⟨?_, by decide, by decide, ?_, by decide⟩
      · intro hc; exact (hn.chars _ hc).2.2.2.2.2 rfl
      · intro hc; exact (hj _ hc).2.2 rfl

/-- Columns that can be written and read back. -/
structure Column.Ok (rt : CsvRT) (c : Column) : Prop where
  name : Word c.name
  units : Word c.units
  valid : c.units = unitless ∨ rt.validUnits c.units = true
  notLabel : c.units ≠ inputLbl ∧ c.units ≠ outputLbl

theorem headerCell_text (rt : CsvRT) (hal : ∀ s, rt.alias_ s = s) (c : Column) (hc : c.Ok rt) :
    headerCell rt none (headerText c.name c.units c.label) = .ok (.col c.name c.units c.label) := by
  unfold headerCell
  rw [headerParts_text _ _ _ hc.name hc.units]
  obtain ⟨h1, h2⟩ := hc.notLabel
  have hip : infoParts c.units c.label = (if c.units = unitless then [] else [c.units]) ++
      infoParts unitless c.label := by simp [infoParts]
  have d1 : inputLbl ≠ outputLbl := by decide
  have d2 : outputLbl ≠ inputLbl := by decide
  by_cases h : c.units = unitless
  · rw [if_pos h] at hip
    rw [hip]
    cases hl : c.label with
    | none => simp [h, infoParts, hal]
    | some b => cases b <;> simp [h, d1, d2, infoParts, hal]
  · have hv : rt.validUnits c.units = true := by
      rcases hc.valid with h' | h'
      · exact absurd h' h
      · exact h'
    rw [if_neg h] at hip
    rw [hip]
    cases hl : c.label with
    | none => simp [h1.symm, h2.symm, hv, infoParts, hal]
    | some b =>
      cases b
      · simp [h1.symm, d1, hv, h2, List.erase_cons, infoParts, hal]
      · simp [h2.symm, d2, hv, h1, List.erase_cons, infoParts, hal]

theorem headerLoop_cols (rt : CsvRT) (hal : ∀ s, rt.alias_ s = s) (cols : List Column)
    (hc : ∀ c ∈ cols, c.Ok rt) :
    ∀ (i : Nat) (h : Hdr), (Dict.keys h.units ++ cols.map Column.name).Nodup →
      headerLoop rt none (cols.map (fun c => headerText c.name c.units c.label)) i h
        = .ok { units := h.units ++ cols.map (fun c => (c.name, c.units))
                idx := h.idx ++ (List.range cols.length).map (· + i)
                inputs := h.inputs ++ (cols.filter (fun c => c.label = some true)).map Column.name
                outputs := h.outputs ++ (cols.filter (fun c => c.label = some false)).map Column.name } := by
  induction cols with
  | nil => intro i h _; simp [headerLoop]
  | cons c cols ih =>
    intro i h hnd
    rw [List.map_cons, headerLoop, headerCell_text rt hal c (hc c (by simp))]
    simp only
    have hnew : c.name ∉ Dict.keys h.units := by
      intro hm
      rw [List.nodup_append] at hnd
      exact hnd.2.2 _ hm _ (by simp) rfl
    have hset : Dict.set h.units c.name c.units = h.units ++ [(c.name, c.units)] := by
      clear ih hnd
      generalize h.units = d at hnew
      induction d with
      | nil => rfl
      | cons p d ihd =>
        obtain ⟨a, b⟩ := p
        simp only [Dict.keys, List.map_cons, List.mem_cons, not_or] at hnew
        simp only [Dict.set, if_neg (Ne.symm hnew.1), List.cons_append]
        rw [ihd hnew.2]
    rw [ih (fun x hx => hc x (List.mem_cons_of_mem _ hx))]
    · rw [hset]
      congr 1
      simp only [Hdr.mk.injEq]
      refine ⟨by simp, ?_, ?_, ?_⟩
      · rw [List.length_cons, List.range_succ_eq_map]
        simp only [List.map_cons, List.map_map, List.append_assoc, List.cons_append, List.nil_append, Nat.zero_add]
        congr 2
        apply List.map_congr_left
        intro a _; simp only [Function.comp]; omega
      · rcases hl : c.label with _ | b
        · simp [hl]
        · cases b <;> simp [hl]
      · rcases hl : c.label with _ | b
        · simp [hl]
        · cases b <;> simp [hl]
    · simp only [hset, Dict.keys, List.map_append, List.map_cons, List.map_nil]
      simpa [Dict.keys] using hnd

/-! ## Data rows -/

/-- One accepted data row appends, for each header, exactly the number in the column recorded for that header, and
changes no other column. -/
theorem appendRow_spec (qs : List ℚ) (names : List Txt) :
    ∀ (idx : List Nat) (raw raw' : Dict Txt (List ℚ)), names.Nodup → appendRow qs names idx raw = .ok raw' →
      (∀ k (hk : k < names.length), ∃ i q, idx[k]? = some i ∧ qs[i]? = some q ∧
        Dict.get? raw' names[k] = some ((Dict.get? raw names[k]).getD [] ++ [q])) ∧
      (∀ n, n ∉ names → Dict.get? raw' n = Dict.get? raw n) := by
  induction names with
  | nil =>
    intro idx raw raw' _ h
    simp [appendRow] at h; subst h
    exact ⟨by simp, by simp⟩
  | cons n ns ih =>
    intro idx raw raw' hnd h
    rw [List.nodup_cons] at hnd
    cases idx with
    | nil => simp [appendRow] at h
    | cons i is =>
      simp only [appendRow] at h
      cases hq : qs[i]? with
      | none => simp [hq] at h
      | some q =>
        simp only [hq] at h
        obtain ⟨h1, h2⟩ := ih is _ raw' hnd.2 h
        refine ⟨?_, ?_⟩
        · intro k hk
          cases k with
          | zero =>
            refine ⟨i, q, rfl, hq, ?_⟩
            simp only [List.getElem_cons_zero]
            rw [h2 n hnd.1, Dict.get?_set_self]
          | succ k =>
            simp only [List.length_cons, Nat.add_lt_add_iff_right] at hk
            obtain ⟨i', q', a, b, c⟩ := h1 k hk
            refine ⟨i', q', by simpa using a, b, ?_⟩
            simp only [List.getElem_cons_succ]
            rw [c, Dict.get?_set_ne]
            rintro rfl; exact hnd.1 (List.getElem_mem _)
        · intro m hm
          rw [List.mem_cons, not_or] at hm
          rw [h2 m hm.2, Dict.get?_set_ne _ _ (Ne.symm hm.1)]

theorem appendRow_total (qs : List ℚ) (names : List Txt) :
    ∀ (idx : List Nat) (raw : Dict Txt (List ℚ)), names.length ≤ idx.length → (∀ i ∈ idx, i < qs.length) →
      ∃ raw', appendRow qs names idx raw = .ok raw' := by
  induction names with
  | nil => intro idx raw _ _; exact ⟨raw, rfl⟩
  | cons n ns ih =>
    intro idx raw hl hi
    cases idx with
    | nil => simp at hl
    | cons i is =>
      have h := hi i (by simp)
      simp only [appendRow, List.getElem?_eq_getElem h]
      exact ih is _ (by simpa using hl) (fun j hj => hi j (List.mem_cons_of_mem _ hj))

/-- A row of numbers as cells: how the line is split and that every cell is a number. -/
def NumericLine (rt : CsvRT) (line : Txt) (qs : List ℚ) : Prop :=
  ∃ cells : List Txt, splitDelim (strip (beforeHash line)) = cells ∧ cells ≠ [[]] ∧ (∀ c ∈ cells, c ≠ []) ∧
    List.Forall₂ (fun c q => rt.pyFloat c = some q) cells qs

theorem NumericLine.mapM {rt : CsvRT} {cells : List Txt} {qs : List ℚ} (hne : ∀ c ∈ cells, c ≠ [])
    (h : List.Forall₂ (fun c q => rt.pyFloat c = some q) cells qs) :
    (cells.filter (fun c => c ≠ [])).mapM rt.pyFloat = some qs := by
  have e : cells.filter (fun c => c ≠ []) = cells := by
    rw [List.filter_eq_self]; intro c hc; simpa using hne c hc
  rw [e]
  clear e hne
  induction h with
  | nil => rfl
  | cons h1 _ ih => rw [List.mapM_cons, h1, ih]; rfl

/-- **C11 (attribution).** After the header line, whatever rows of numbers follow (no blank cells, each long
enough), every header with a name of its own gets exactly the numbers that stand in its column, in row order. -/
theorem readRows_columns (rt : CsvRT) (md : Option (Dict Txt Txt)) (h : Hdr)
    (hnd : (Dict.keys h.units).Nodup) (hidx : (Dict.keys h.units).length ≤ h.idx.length) (rows : List (Txt × List ℚ))
    (hrows : ∀ r ∈ rows, NumericLine rt r.1 r.2 ∧ ∀ i ∈ h.idx, i < r.2.length) (raw : Dict Txt (List ℚ)) (chk : Bool) :
    ∃ raw', (rows.map Prod.fst).foldlM (readLine rt md) ⟨some h, chk, raw⟩
        = .ok ⟨some h, if rows = [] then chk else false, raw'⟩ ∧
      ∀ k (hk : k < (Dict.keys h.units).length) (hk' : k < h.idx.length),
        (Dict.get? raw' (Dict.keys h.units)[k]).getD []
          = (Dict.get? raw (Dict.keys h.units)[k]).getD [] ++ rows.map (fun r => r.2.getD h.idx[k] 0) := by
  induction rows generalizing raw chk with
  | nil => exact ⟨raw, by simp [pure, Except.pure], by simp⟩
  | cons r rows ih =>
    obtain ⟨⟨cells, hc, hne, hcn, hf⟩, hlen⟩ := hrows r (by simp)
    obtain ⟨raw1, hraw1⟩ := appendRow_total r.2 (Dict.keys h.units) h.idx raw hidx hlen
    obtain ⟨s1, _⟩ := appendRow_spec r.2 (Dict.keys h.units) h.idx raw raw1 hnd hraw1
    obtain ⟨raw2, h2, h3⟩ := ih (fun x hx => hrows x (List.mem_cons_of_mem _ hx)) raw1 false
    refine ⟨raw2, ?_, ?_⟩
    · rw [List.map_cons, List.foldlM_cons]
      have hl : readLine rt md ⟨some h, chk, raw⟩ r.1 = .ok ⟨some h, false, raw1⟩ := by
        unfold readLine
        simp only [hc, if_neg hne, NumericLine.mapM hcn hf, hraw1]
      rw [hl]
      simp only [bind, Except.bind]
      rw [h2]
      simp
    · intro k hk hk'
      rw [h3 k hk hk']
      obtain ⟨i, q, a, b, c⟩ := s1 k hk
      rw [c]
      have hi : i = h.idx[k] := by
        rw [List.getElem?_eq_getElem hk'] at a; exact (Option.some.inj a).symm
      subst hi
      have hq : r.2.getD h.idx[k] 0 = q := by rw [List.getD_eq_getElem?_getD, b]; rfl
      rw [List.map_cons, hq, Option.getD_some, List.append_assoc]; rfl

/-! ## Round trip -/

theorem beforeHash_none (l : Txt) (h : '#' ∉ l) : beforeHash l = l := by
  unfold beforeHash
  have := takeWhile_all (fun c => decide (c ≠ '#')) l [] (by
    intro x hx; simp only [decide_eq_true_eq]; rintro rfl; exact h hx) (by simp)
  simpa using this

theorem not_mem_joinComma (ws : List Txt) (h : ∀ w ∈ ws, '#' ∉ w) : '#' ∉ joinComma ws := by
  induction ws with
  | nil => simp [joinComma]
  | cons w ws ih =>
    cases ws with
    | nil => simpa [joinComma] using h w (by simp)
    | cons w' ws =>
      rw [joinComma]
      · simp only [List.mem_append, List.mem_cons, not_or]
        exact ⟨h w (by simp), by decide, by decide, ih (fun x hx => h x (List.mem_cons_of_mem _ hx))⟩
      · exact fun e => by cases e

theorem hash_padded (n : Nat) (w : Txt) (h : '#' ∉ w) : '#' ∉ padded n w := by
  unfold padded
  simp only [List.mem_append, not_or]
  exact ⟨fun hc => by have := (List.mem_replicate.1 hc).2; simp at this, h⟩

theorem written_line_cells (cells : List Txt) (w : Nat → Nat) (hne : cells ≠ [])
    (hs : ∀ c ∈ cells, CellShape c) (ht : ∀ c ∈ cells, Trimmed c) (hnn : ∀ c ∈ cells, c ≠ [])
    (hh : ∀ c ∈ cells, '#' ∉ c) :
    splitDelim (strip (beforeHash (joinComma (cells.mapIdx (fun j c => padded (w j) c))))) = cells := by
  rw [beforeHash_none]
  · exact splitDelim_join cells w hne hs ht hnn
  · apply not_mem_joinComma
    intro x hx
    obtain ⟨j, hj, rfl⟩ := List.mem_mapIdx.1 hx
    exact hash_padded _ _ (hh _ (List.getElem_mem _))

/-- **C11 (round trip).** Writing any non-empty table of distinct, well-formed columns of any common length, with
any column widths, and reading the file back gives the same names, units, input/output labels and numbers.
`str`/`float` are only assumed to be inverse to each other on the written numbers. -/
theorem readFile_writeFile (rt : CsvRT) (hal : ∀ s, rt.alias_ s = s) (str : ℚ → Txt)
    (hstr : ∀ q, Word (str q) ∧ rt.pyFloat (str q) = some q)
    (cols : List Column) (hne : cols ≠ []) (hc : ∀ c ∈ cols, c.Ok rt) (hnd : (cols.map Column.name).Nodup)
    (htext : ∃ c ∈ cols, rt.pyFloat (headerText c.name c.units c.label) = none)
    (n : Nat) (hn : ∀ c ∈ cols, c.values.length = n) (w : Nat → Nat → Nat) :
    readFile rt none (writeFile str w cols n) = .ok
      { data := cols.map (fun c => (c.name, c.units, c.values))
        inputs := (cols.filter (fun c => c.label = some true)).map Column.name
        outputs := (cols.filter (fun c => c.label = some false)).map Column.name } := by
  -- header line
  set hcells := cols.map (fun c => headerText c.name c.units c.label) with hhc
  have hshape : ∀ c ∈ hcells, CellShape c ∧ Trimmed c ∧ c ≠ [] ∧ '#' ∉ c := by
    intro x hx
    obtain ⟨c, hcm, rfl⟩ := List.mem_map.1 hx
    exact headerText_shape _ _ _ (hc c hcm).name (hc c hcm).units
  have hcne : hcells ≠ [] := by simpa [hhc] using hne
  have hline : joinComma (cols.mapIdx (fun j c => padded (w 0 j) (headerText c.name c.units c.label)))
      = joinComma (hcells.mapIdx (fun j c => padded (w 0 j) c)) := by
    congr 1
    apply List.ext_getElem
    · simp [hhc]
    · intro i h1 h2; simp [hhc]
  have hsplit := written_line_cells hcells (w 0) hcne (fun c h => (hshape c h).1) (fun c h => (hshape c h).2.1)
    (fun c h => (hshape c h).2.2.1) (fun c h => (hshape c h).2.2.2)
  have hnotnum : (hcells.filter (fun c => c ≠ [])).mapM rt.pyFloat = none := by
    have e : hcells.filter (fun c => c ≠ []) = hcells := by
      rw [List.filter_eq_self]; intro c h; simpa using (hshape c h).2.2.1
    rw [e]
    obtain ⟨c, hcm, hcn⟩ := htext
    have hm : headerText c.name c.units c.label ∈ hcells := List.mem_map.2 ⟨c, hcm, rfl⟩
    revert hm
    generalize hcells = l
    intro hm
    induction l with
    | nil => cases hm
    | cons x l ih =>
      rw [List.mapM_cons]
      rcases List.mem_cons.1 hm with rfl | hm
      · rw [hcn]; rfl
      · rw [ih hm]; cases rt.pyFloat x <;> rfl
  set H : Hdr := Hdr.mk (cols.map (fun c => (c.name, c.units))) (List.range cols.length)
    ((cols.filter (fun c => c.label = some true)).map Column.name)
    ((cols.filter (fun c => c.label = some false)).map Column.name) with hH
  have hloop : headerLoop rt none hcells 0 ⟨[], [], [], []⟩ = .ok H := by
    rw [hhc, headerLoop_cols rt hal cols hc 0 ⟨[], [], [], []⟩ (by simpa [Dict.keys] using hnd)]
    simp [hH]
  have hkeys : Dict.keys H.units = cols.map Column.name := by simp [hH, Dict.keys]
  have hfirst : readLine rt none ⟨none, true, []⟩
      (joinComma (cols.mapIdx (fun j c => padded (w 0 j) (headerText c.name c.units c.label))))
      = .ok ⟨some H, false, (Dict.keys H.units).map (fun n => (n, []))⟩ := by
    unfold readLine
    rw [hline, hsplit]
    have h1 : hcells ≠ [[]] := by
      intro e; exact (hshape [] (by rw [e]; simp)).2.2.1 rfl
    have h2 : H.units ≠ [] := by simpa [hH] using hne
    simp only [if_neg h1, hnotnum, if_true, hloop, if_neg h2]
  -- rows
  let rowOf : Nat → Txt × List ℚ := fun r =>
    (joinComma (cols.mapIdx (fun j c => padded (w (r + 1) j) (str (c.values.getD r 0)))),
     cols.map (fun c => c.values.getD r 0))
  have hrow : ∀ r ∈ (List.range n).map rowOf, NumericLine rt r.1 r.2 ∧ ∀ i ∈ H.idx, i < r.2.length := by
    intro x hx
    obtain ⟨r, _, rfl⟩ := List.mem_map.1 hx
    refine ⟨?_, ?_⟩
    · let cells := cols.map (fun c => str (c.values.getD r 0))
      have hw : ∀ c ∈ cells, Word c := by
        intro c hcm; obtain ⟨d, _, rfl⟩ := List.mem_map.1 hcm; exact (hstr _).1
      have hl : joinComma (cols.mapIdx (fun j c => padded (w (r + 1) j) (str (c.values.getD r 0))))
          = joinComma (cells.mapIdx (fun j c => padded (w (r + 1) j) c)) := by
        congr 1
        apply List.ext_getElem
        · simp [cells]
        · intro i h1 h2; simp [cells]
      refine ⟨cells, ?_, ?_, fun c h => (hw c h).ne, ?_⟩
      · simp only [rowOf]
        rw [hl]
        apply written_line_cells
        · simpa [cells] using hne
        · intro c h
          refine .plain ?_
          intro ch hch
          obtain ⟨_, a, b, d, e, _⟩ := (hw c h).chars ch hch; exact ⟨a, b, d, e⟩
        · intro c h
          exact ⟨fun ch hch => ((hw c h).chars ch (List.mem_of_mem_head? hch)).1,
            fun ch hch => ((hw c h).chars ch (List.mem_of_mem_getLast? hch)).1⟩
        · exact fun c h => (hw c h).ne
        · intro c h hm; exact ((hw c h).chars _ hm).2.2.2.2.2 rfl
      · intro e
        exact (hw [] (by rw [e]; simp)).ne rfl
      · simp only [rowOf, cells]
        rw [List.forall₂_map_left_iff, List.forall₂_map_right_iff]
        exact List.forall₂_same.2 (fun c _ => (hstr _).2)
    · intro i hi
      simpa [rowOf, hH] using hi
  obtain ⟨raw', hfold, hcolumns⟩ := readRows_columns rt none H (by rw [hkeys]; exact hnd)
    (by rw [hkeys]; simp [hH]) _ hrow ((Dict.keys H.units).map (fun n => (n, []))) false
  have hlines : writeFile str w cols n =
      joinComma (cols.mapIdx (fun j c => padded (w 0 j) (headerText c.name c.units c.label))) ::
      ((List.range n).map rowOf).map Prod.fst := by
    simp [writeFile, rowOf, Function.comp_def]
  unfold readFile
  rw [hlines, List.foldlM_cons, hfirst]
  simp only [bind, Except.bind]
  rw [hfold]
  simp only
  congr 1
  simp only [CsvResult.mk.injEq]
  refine ⟨?_, rfl, rfl⟩
  simp only [hH, List.map_map]
  apply List.ext_getElem
  · simp
  · intro k h1 h2
    have hk : k < cols.length := by simpa using h2
    simp only [List.getElem_map, Function.comp, Prod.mk.injEq, true_and]
    have hck := hcolumns k (by rw [hkeys]; simpa using hk) (by simpa [hH] using hk)
    have hname : (Dict.keys H.units)[k]'(by rw [hkeys]; simpa using hk) = cols[k].name := by
      simp [hkeys]
    rw [hname] at hck
    rw [hck]
    have hraw0 : (Dict.get? ((Dict.keys H.units).map (fun n => (n, ([] : List ℚ)))) cols[k].name).getD [] = [] := by
      generalize Dict.keys H.units = l
      induction l with
      | nil => rfl
      | cons a l ih =>
        by_cases h : a = cols[k].name <;> simp [Dict.get?, h, ih]
    rw [hraw0, List.nil_append, List.map_map]
    have hvl := hn cols[k] (List.getElem_mem _)
    apply List.ext_getElem
    · simp [hvl]
    · intro r hr1 hr2
      simp only [List.getElem_map, List.getElem_range, Function.comp, rowOf, hH]
      rw [List.getD_eq_getElem?_getD, List.getElem?_map, List.getElem?_eq_getElem hk]
      simp [List.getElem?_eq_getElem hr2]

/-! ## Violations -/

/-- **C11 (header cells, with metadata).** For any header cell: a name that is not in the metadata is skipped;
a cell marked both input and output is refused; units that are not units, or that are incompatible with the
metadata, are refused with `ValueError`; a cell without units gets the metadata units; otherwise the written
units and label are kept. -/
theorem headerCell_metadata (rt : CsvRT) (d : Dict Txt Txt) (cell name : Txt) (parts : List Txt)
    (hp : headerParts cell = (name, parts)) :
    (Dict.get? d (rt.alias_ name) = none → headerCell rt (some d) cell = .ok .skip) ∧
    (∀ dflt, Dict.get? d (rt.alias_ name) = some dflt →
      (inputLbl ∈ parts → outputLbl ∈ parts → headerCell rt (some d) cell = .error .userWarning) ∧
      (parts = [] → headerCell rt (some d) cell = .ok (.col (rt.alias_ name) dflt none)) ∧
      (∀ u, u ≠ inputLbl → u ≠ outputLbl →
        (rt.validUnits u = false → ∀ l, parts = u :: l → (inputLbl ∉ l ∨ outputLbl ∉ l) →
          headerCell rt (some d) cell = .error .valueError) ∧
        (rt.validUnits u = true → rt.compat u dflt = false →
          (parts = [u] ∨ parts = [u, inputLbl] ∨ parts = [u, outputLbl]) →
          headerCell rt (some d) cell = .error .valueError) ∧
        (rt.validUnits u = true → rt.compat u dflt = true →
          (parts = [u] → headerCell rt (some d) cell = .ok (.col (rt.alias_ name) u none)) ∧
          (parts = [u, inputLbl] → headerCell rt (some d) cell = .ok (.col (rt.alias_ name) u (some true))) ∧
          (parts = [u, outputLbl] →
            headerCell rt (some d) cell = .ok (.col (rt.alias_ name) u (some false)))))) := by
  have hio : inputLbl ≠ outputLbl := by decide
  refine ⟨?_, ?_⟩
  · intro h; simp [headerCell, hp, h]
  intro dflt hd
  refine ⟨?_, ?_, ?_⟩
  · intro h1 h2; simp [headerCell, hp, hd, h1, h2]
  · rintro rfl; simp [headerCell, hp, hd]
  intro u hu1 hu2
  refine ⟨?_, ?_, ?_⟩
  · intro hv l hl hno
    subst hl
    have e1 : (u :: l).erase inputLbl = u :: l.erase inputLbl := List.erase_cons_tail (by simp [hu1])
    have e2 : (u :: l).erase outputLbl = u :: l.erase outputLbl := List.erase_cons_tail (by simp [hu2])
    have last : ∀ l' : List Txt, ∃ w, (u :: l').getLast? = some w := fun l' =>
      ⟨_, List.getLast?_eq_some_getLast (by simp)⟩
    simp only [headerCell, hp, hd, List.mem_cons, hu1.symm, hu2.symm, false_or, e1, e2]
    obtain ⟨w0, h0⟩ := last l
    obtain ⟨w1, h1⟩ := last (l.erase inputLbl)
    obtain ⟨w2, h2⟩ := last (l.erase outputLbl)
    by_cases hi : inputLbl ∈ l
    · have ho : outputLbl ∉ l := by
        rcases hno with h | h
        · exact absurd hi h
        · exact h
      simp [hi, ho, h1, hv]
    · by_cases ho : outputLbl ∈ l
      · simp [hi, ho, h2, hv]
      · simp [hi, ho, h0, hv]
  · rintro hv hc (rfl | rfl | rfl) <;>
      simp [headerCell, hp, hd, hv, hc, hu1.symm, hu2.symm, hu1, hu2, hio, hio.symm, List.erase_cons]
  · intro hv hc
    refine ⟨?_, ?_, ?_⟩ <;> rintro rfl <;>
      simp [headerCell, hp, hd, hv, hc, hu1.symm, hu2.symm, hu1, hu2, hio, hio.symm, List.erase_cons]

/-- The cell is read as a column. -/
def IsCol (rt : CsvRT) (md : Option (Dict Txt Txt)) (cell : Txt) : Bool :=
  match headerCell rt md cell with
  | .ok (.col _ _ _) => true
  | _ => false

/-- **C11 (skipped columns).** The recorded column positions are exactly the positions, in the header line, of
the cells that were read as columns: unknown columns in between do not shift the others. -/
theorem headerLoop_positions (rt : CsvRT) (md : Option (Dict Txt Txt)) (cells : List Txt) :
    ∀ (i : Nat) (h h' : Hdr), headerLoop rt md cells i h = .ok h' →
      h'.idx = h.idx ++ ((cells.zipIdx i).filter (fun p => IsCol rt md p.1)).map Prod.snd := by
  induction cells with
  | nil => intro i h h' e; simp only [headerLoop, Except.ok.injEq] at e; subst e; simp
  | cons c cells ih =>
    intro i h h' e
    simp only [headerLoop] at e
    cases hc : headerCell rt md c with
    | error err => simp [hc] at e
    | ok r =>
      cases r with
      | skip =>
        simp only [hc] at e
        rw [ih _ _ _ e]
        simp [List.zipIdx_cons, IsCol, hc]
      | col n u l =>
        simp only [hc] at e
        rw [ih _ _ _ e]
        simp [List.zipIdx_cons, IsCol, hc]

example (rt : CsvRT) (hv : ∀ s, rt.alias_ s = s) :
    (headerLoop rt (some [("b".toList, unitless)]) ["a".toList, "b".toList] 0 ⟨[], [], [], []⟩).toOption.map
      (·.idx) = some [1] := by
  simp [headerLoop, headerCell, headerParts, splitP, stripBy, Dict.get?, hv, Except.toOption, blank]

/-- **C11 (only one header).** Once the header or a row of numbers has been read, a line that is neither empty
nor numeric is refused with `ValueError`; a header without any accepted column is refused as well; comments and
empty lines change nothing. -/
theorem readLine_rejects (rt : CsvRT) (md : Option (Dict Txt Txt)) (st : CsvState) (line : Txt) :
    (strip (beforeHash line) = [] → readLine rt md st line = .ok st) ∧
    (splitDelim (strip (beforeHash line)) ≠ [[]] →
      ((splitDelim (strip (beforeHash line))).filter (fun c => c ≠ [])).mapM rt.pyFloat = none →
      (st.check = false → readLine rt md st line = .error .valueError) ∧
      (st.check = true → ∀ h, headerLoop rt md (splitDelim (strip (beforeHash line))) 0 ⟨[], [], [], []⟩ = .ok h →
        h.units = [] → readLine rt md st line = .error .valueError) ∧
      (∀ st', readLine rt md st line = .ok st' → st'.check = false)) := by
  refine ⟨?_, ?_⟩
  · intro h; simp [readLine, h, splitDelim, splitRaw]
  · intro h1 h2
    refine ⟨?_, ?_, ?_⟩
    · intro hc; simp only [readLine, h1, if_false, h2, hc]; rfl
    · intro hc h hl hu; simp only [readLine, h1, if_false, h2, hc, if_true, hl, hu]
    · intro st' hr
      simp only [readLine, h1, if_false, h2] at hr
      split at hr
      · split at hr
        · cases hr
        · split at hr
          · cases hr
          · cases hr; rfl
      · cases hr


/-- A concrete number reader for the witnesses. -/
def demoCsv : CsvRT where
  pyFloat s := (String.ofList s).toNat?.map (fun n => (n : ℚ))
  validUnits _ := true
  compat _ _ := true
  alias_ s := s

def floatOf (t : List (Txt × ℚ)) : CsvRT :=
  { demoCsv with pyFloat := fun s => Dict.get? t s }

def demoNums : CsvRT := floatOf [("1".toList, 1), ("2".toList, 2), ("3".toList, 3)]

/-- **C11 violated (repeated header).** With the header `a, a, b` and the row `1, 2, 3` the column `b` is read from
the second cell: `b` is reported as 2 although 3 stands below `b`. -/
theorem readFile_duplicate_header_violated :
    (readFile demoNums none ["a, a, b".toList, "1, 2, 3".toList]).toOption.map (·.data)
      = some [("a".toList, unitless, [1]), ("b".toList, unitless, [2])] := by
  decide +kernel

/-- **C11 violated (blank cell).** With the header `a, b, c` and the row `1, , 3, 2` the blank cell is dropped and the
following numbers move one column to the left. -/
theorem readFile_blank_cell_violated :
    (readFile demoNums none ["a, b, c".toList, "1, , 3, 2".toList]).toOption.map (·.data)
      = some [("a".toList, unitless, [1]), ("b".toList, unitless, [3]), ("c".toList, unitless, [2])] := by
  decide +kernel

/-- **C11 violated (numbers before the header).** A row of numbers before any header is not reported as a malformed
file: the local variable `header` is read before assignment. -/
theorem readFile_no_header_violated (rt : CsvRT) (md : Option (Dict Txt Txt)) (line : Txt) (qs : List ℚ)
    (rest : List Txt) (h : NumericLine rt line qs) :
    readFile rt md (line :: rest) = .error .unboundLocal := by
  obtain ⟨cells, hc, hne, hcn, hf⟩ := h
  unfold readFile
  rw [List.foldlM_cons]
  have : readLine rt md ⟨none, true, []⟩ line = .error .unboundLocal := by
    unfold readLine
    simp only [hc, if_neg hne, NumericLine.mapM hcn hf]
  rw [this]; rfl

/-- The hypotheses of `readFile_writeFile` are met by a two-column table. -/
example : ∃ (rt : CsvRT) (c d : Column), c.Ok rt ∧ d.Ok rt ∧ [c.name, d.name].Nodup ∧
    rt.pyFloat (headerText c.name c.units c.label) = none ∧
    headerText d.name d.units d.label = "thrust (lbf, output)".toList := by
  refine ⟨demoNums, ⟨"mach".toList, unitless, some true, [1, 2]⟩,
    ⟨"thrust".toList, "lbf".toList, some false, [3, 1]⟩, ?_, ?_, by decide, by decide, by decide⟩
  · exact ⟨⟨by decide, by decide⟩, ⟨by decide, by decide⟩, Or.inl rfl, by decide⟩
  · exact ⟨⟨by decide, by decide⟩, ⟨by decide, by decide⟩, Or.inr rfl, by decide⟩

end Verif
