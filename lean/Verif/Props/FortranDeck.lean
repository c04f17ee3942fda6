import Verif.Model.FortranDeck
import Mathlib.Tactic.SplitIfs
import Mathlib.Tactic.Cases
import Mathlib.Data.List.Basic

/-!
# C70: assignments of a namelist deck reach the converter under their namelist, in order and with their data
-/

namespace Verif.Fortran

theorem splitChar_ne_nil (d : Char) (s : Txt) : splitChar d s ≠ [] := by
  cases s with
  | nil => simp [splitChar]
  | cons c cs =>
    unfold splitChar
    split_ifs
    · simp
    · split <;> simp

/-- Text without the separator stays in front of the first part. -/
theorem splitChar_append (d : Char) (a : Txt) (ha : d ∉ a) (s h : Txt) (t : List Txt)
    (hs : splitChar d s = h :: t) : splitChar d (a ++ s) = (a ++ h) :: t := by
  induction a with
  | nil => simpa using hs
  | cons c cs ih =>
    have hc : c ≠ d := fun e => ha (by simp [e])
    have := ih (fun hm => ha (List.mem_cons_of_mem _ hm))
    simp [splitChar, hc, this]

theorem splitChar_single (d : Char) (a : Txt) (ha : d ∉ a) : splitChar d a = [a] := by
  have := splitChar_append d a ha [] [] [] (by simp [splitChar])
  simpa using this

theorem splitChar_sep (d : Char) (a : Txt) (ha : d ∉ a) (s : Txt) :
    splitChar d (a ++ d :: s) = a :: splitChar d s := by
  have := splitChar_append d a ha (d :: s) [] (splitChar d s) (by simp [splitChar])
  simpa using this

/-- Splitting at the separator undoes joining. -/
theorem splitChar_join (d : Char) (ps : List Txt) (hne : ps ≠ []) (h : ∀ p ∈ ps, d ∉ p) :
    splitChar d (joinChar d ps) = ps := by
  induction ps with
  | nil => exact absurd rfl hne
  | cons p rest ih =>
    cases rest with
    | nil => simpa [joinChar] using splitChar_single d p (h p (by simp))
    | cons q rest =>
      rw [joinChar]
      · rw [splitChar_sep d p (h p (by simp)), ih (by simp) (fun x hx => h x (List.mem_cons_of_mem _ hx))]
      · simp

/-- Joining undoes splitting. -/
theorem joinChar_split (d : Char) (s : Txt) : joinChar d (splitChar d s) = s := by
  induction s with
  | nil => simp [splitChar, joinChar]
  | cons c cs ih =>
    rcases hp : splitChar d cs with _ | ⟨h, t⟩
    · exact absurd hp (splitChar_ne_nil d cs)
    · rw [hp] at ih
      by_cases hc : c = d
      · simp [splitChar, hc, hp, joinChar, ih]
      · simp only [splitChar, hc, if_false, hp]
        cases t with
        | nil => simpa [joinChar] using ih
        | cons q t =>
          simp only [joinChar] at ih ⊢
          simp [← ih]

theorem joinChar_snoc (d : Char) (ps : List Txt) (hne : ps ≠ []) (q : Txt) :
    joinChar d (ps ++ [q]) = joinChar d ps ++ d :: q := by
  induction ps with
  | nil => exact absurd rfl hne
  | cons p rest ih =>
    cases rest with
    | nil => simp [joinChar]
    | cons r rest =>
      have := ih (by simp)
      simp only [List.cons_append, joinChar] at this ⊢
      rw [this]; simp

theorem joinChar_snoc_append (d : Char) (ps : List Txt) (q r : Txt) :
    joinChar d (ps ++ [q]) ++ r = joinChar d (ps ++ [q ++ r]) := by
  induction ps with
  | nil => simp [joinChar]
  | cons p rest ih =>
    cases rest with
    | nil => simp [joinChar]
    | cons s rest => simp only [List.cons_append, joinChar] at ih ⊢; simp [ih]

theorem not_mem_join (d e : Char) (hde : d ≠ e) (ps : List Txt) (h : ∀ p ∈ ps, d ∉ p) : d ∉ joinChar e ps := by
  induction ps with
  | nil => simp [joinChar]
  | cons p rest ih =>
    cases rest with
    | nil => simpa [joinChar] using h p (by simp)
    | cons q rest =>
      simp only [joinChar, List.mem_append, List.mem_cons, not_or]
      exact ⟨h p (by simp), hde, ih (fun x hx => h x (List.mem_cons_of_mem _ hx))⟩

/-! ## One line -/

/-- An assignment as written in a deck: a name, its values, and whether a comma follows. -/
structure Asg where
  name : Txt
  vals : List Txt
  last : Txt
  comma : Bool

/-- The values as the text that is handed over. -/
def Asg.data (a : Asg) : Txt := joinChar ',' (a.vals ++ [a.last])

/-- The line on which the assignments are written one after the other. -/
def render : List Asg → Txt
  | [] => []
  | [a] => a.name ++ '=' :: a.data
  | a :: rest => a.name ++ '=' :: (a.data ++ (if a.comma then [','] else []) ++ render rest)

/-- Names start with a letter, names and values contain neither `=` nor `,`; when the comma is left out the last
value is a number without an exponent. -/
def Asg.Ok (a : Asg) : Prop :=
  (∃ c cs, a.name = c :: cs ∧ alpha c = true) ∧ '=' ∉ a.name ∧ ',' ∉ a.name ∧
  (∀ v ∈ a.vals ++ [a.last], '=' ∉ v ∧ ',' ∉ v) ∧
  (a.comma = false → a.last ≠ [] ∧ ∀ c ∈ a.last, alpha c = false)

/-- The parts of the line between the equal signs. -/
def tails : List Asg → List Txt
  | [] => []
  | [a] => [a.data]
  | a :: b :: rest => (a.data ++ (if a.comma then [','] else []) ++ b.name) :: tails (b :: rest)

theorem data_no_eq {a : Asg} (h : a.Ok) : '=' ∉ a.data :=
  not_mem_join _ _ (by decide) _ (fun p hp => (h.2.2.2.1 p hp).1)

theorem split_render (a : Asg) (rest : List Asg) (h : ∀ x ∈ a :: rest, x.Ok) :
    splitChar '=' (render (a :: rest)) = a.name :: tails (a :: rest) := by
  induction rest generalizing a with
  | nil =>
    have ha := h a (by simp)
    rw [render, splitChar_sep _ _ ha.2.1, splitChar_single _ _ (data_no_eq ha)]; rfl
  | cons b rest ih =>
    have ha := h a (by simp)
    have hb := ih b (fun x hx => h x (List.mem_cons_of_mem _ hx))
    rw [render, splitChar_sep _ _ ha.2.1]
    · rw [splitChar_append '=' _ _ _ _ _ hb]
      · simp [tails]
      · have := data_no_eq ha
        simp only [List.mem_append, not_or]
        exact ⟨this, by split_ifs <;> simp⟩
    · simp

theorem takeWhile_append_alpha {v : Txt} {c : Char} {cs : Txt} (hv : ∀ x ∈ v, alpha x = false) (hc : alpha c = true) :
    (v ++ c :: cs).takeWhile (fun x => !alpha x) = v ∧ (v ++ c :: cs).dropWhile (fun x => !alpha x) = c :: cs := by
  induction v with
  | nil => simp [hc]
  | cons x v ih =>
    have := ih (fun y hy => hv y (List.mem_cons_of_mem _ hy))
    simp [hv x (by simp), this]

theorem pieces_tails (ns : Txt) (a : Asg) (rest : List Asg) (h : ∀ x ∈ a :: rest, x.Ok) :
    pieces ns a.name (tails (a :: rest)) = (a :: rest).map (fun x => .assign ns x.name x.data) := by
  induction rest generalizing a with
  | nil => simp [tails, pieces, joinChar_split]
  | cons b rest ih =>
    have ha := h a (by simp)
    have hb := h b (by simp)
    have hi := ih b (fun x hx => h x (List.mem_cons_of_mem _ hx))
    obtain ⟨c, cs, hn, hc⟩ := hb.1
    have ht : ∃ t ts, tails (b :: rest) = t :: ts := by
      cases rest <;> simp [tails]
    obtain ⟨t, ts, ht⟩ := ht
    rw [tails, ht, pieces, ← ht]
    · cases hcm : a.comma with
      | true =>
        have hs : splitChar ',' (a.data ++ (if a.comma then [','] else []) ++ b.name) = (a.vals ++ [a.last]) ++ [b.name] := by
          rw [hcm, if_pos rfl, Asg.data]
          have : joinChar ',' (a.vals ++ [a.last]) ++ [','] ++ b.name =
              joinChar ',' ((a.vals ++ [a.last]) ++ [b.name]) := by
            rw [joinChar_snoc ',' (a.vals ++ [a.last]) (by simp) b.name, List.append_assoc]; rfl
          rw [this, splitChar_join _ _ (by simp)]
          intro p hp
          rcases List.mem_append.1 hp with hp | hp
          · exact (ha.2.2.2.1 p hp).2
          · simp at hp; subst hp; exact hb.2.2.1
        rw [hcm] at hs
        rw [hs]
        simp only [List.getLastD_concat, List.dropLast_concat]
        rw [hn] at hi ⊢
        simp only [hc, if_true]
        rw [hi]; simp [Asg.data, hn]
      | false =>
        obtain ⟨hl, hla⟩ := ha.2.2.2.2 hcm
        have hs : splitChar ',' (a.data ++ (if a.comma then [','] else []) ++ b.name) = a.vals ++ [a.last ++ b.name] := by
          rw [hcm]
          simp only [Bool.false_eq_true, if_false, List.append_nil, Asg.data]
          rw [joinChar_snoc_append, splitChar_join _ _ (by simp)]
          intro p hp
          rcases List.mem_append.1 hp with hp | hp
          · exact (ha.2.2.2.1 p (by simp [hp])).2
          · simp at hp; subst hp
            simp only [List.mem_append, not_or]
            exact ⟨(ha.2.2.2.1 a.last (by simp)).2, hb.2.2.1⟩
        rw [hcm] at hs
        rw [hs]
        simp only [List.getLastD_concat, List.dropLast_concat]
        have hw := takeWhile_append_alpha (cs := cs) hla hc
        rw [← hn] at hw
        rcases hlast : a.last with _ | ⟨x, xs⟩
        · exact absurd hlast hl
        · rw [hlast] at hw
          have hx : alpha x = false := hla x (by simp [hlast])
          simp only [List.cons_append, hx, Bool.false_eq_true, if_false] at hw ⊢
          rw [hw.1, hw.2, hi]; simp [Asg.data, hlast]
    · simp

/-- A line of assignments is read as exactly these assignments, in order, with the data as written. -/
theorem line_roundtrip (ns : Txt) (as : List Asg) (hne : as ≠ []) (h : ∀ x ∈ as, x.Ok) :
    lineActs ns (render as) = as.map (fun x => .assign ns x.name x.data) := by
  rcases as with _ | ⟨a, rest⟩
  · exact absurd rfl hne
  · have hs := split_render a rest h
    have hp := pieces_tails ns a rest h
    unfold lineActs
    rw [hs]
    rcases rest with _ | ⟨b, rest⟩
    · simp [tails]
    · have ht : ∃ t ts, tails (b :: rest) = t :: ts := by cases rest <;> simp [tails]
      obtain ⟨t, ts, ht⟩ := ht
      rw [tails, ht] at hp ⊢
      simpa using hp

/-- A line without an equal sign stores nothing. -/
theorem line_without_eq (ns line : Txt) (h : '=' ∉ line) : lineActs ns line = [] := by
  simp [lineActs, splitChar_single _ _ h]

/-- Every assignment read from a line goes to the namelist handed in. -/
theorem pieces_ns (ns : Txt) : ∀ (ps : List Txt) (name : Txt) (a : Act), a ∈ pieces ns name ps →
    a = .fail .indexError ∨ ∃ n d, a = .assign ns n d := by
  intro ps
  induction ps with
  | nil => intro name a h; simp [pieces] at h
  | cons s rest ih =>
    intro name a h
    rcases rest with _ | ⟨t, ts⟩
    · simp [pieces] at h; exact Or.inr ⟨_, _, h⟩
    · rw [pieces] at h
      · split at h
        · simp at h; exact Or.inl h
        · split_ifs at h <;>
          · rcases List.mem_cons.1 h with h | h
            · exact Or.inr ⟨_, _, h⟩
            · exact ih _ a h
      · simp

theorem line_ns (ns line : Txt) (a : Act) (h : a ∈ lineActs ns line) :
    a = .fail .indexError ∨ ∃ n d, a = .assign ns n d := by
  unfold lineActs at h
  split at h
  · simp at h
  · simp at h
  · simp at h; exact Or.inr ⟨_, _, h⟩
  · exact pieces_ns ns _ _ a h

/-! ## White space, comments and trailing commas -/

theorem takeWhile_self (p : Char → Bool) (s : Txt) (h : ∀ x ∈ s, p x = true) : s.takeWhile p = s := by
  induction s with
  | nil => rfl
  | cons x s ih => simp [h x (by simp), ih (fun y hy => h y (List.mem_cons_of_mem _ hy))]

theorem clean_comment (a c : Txt) : clean (a ++ '!' :: c) = clean a := by
  have : (a ++ '!' :: c).takeWhile (· ≠ '!') = a.takeWhile (· ≠ '!') := by
    induction a with
    | nil => simp
    | cons x a ih => by_cases hx : x = '!' <;> simp_all
  unfold clean; rw [this]

theorem clean_blank (a b : Txt) (c : Char) (hc : blank c = true) : clean (a ++ c :: b) = clean (a ++ b) := by
  have hb : c ≠ '!' := by rintro rfl; simp [blank] at hc
  have : ((a ++ c :: b).takeWhile (· ≠ '!')).filter (fun c => !blank c) =
      ((a ++ b).takeWhile (· ≠ '!')).filter (fun c => !blank c) := by
    induction a with
    | nil => simp [hb, hc]
    | cons x a ih =>
      by_cases hx : x = '!'
      · simp [hx]
      · simp only [List.cons_append, List.takeWhile_cons, hx, ne_eq, not_false_eq_true, decide_true, if_true,
          List.filter_cons]
        rw [show (fun c => decide (¬c = '!')) = (fun c => decide (c ≠ '!')) from rfl, ih]
  unfold clean; rw [this]

theorem clean_comma (a : Txt) (ha : '!' ∉ a) : clean (a ++ [',']) = clean a := by
  have h1 : ∀ s : Txt, '!' ∉ s → s.takeWhile (· ≠ '!') = s := by
    intro s hs
    apply takeWhile_self
    intro x hx
    simp only [ne_eq, decide_eq_true_eq]
    rintro rfl; exact hs hx
  unfold clean
  rw [h1 _ ha, h1 (a ++ [',']) (by simp [ha])]
  simp [blank]

/-- Text without blanks and comments that does not end with a comma is not changed. -/
theorem clean_self (a : Txt) (h1 : ∀ c ∈ a, c ≠ '!' ∧ blank c = false) (h2 : a.getLast? ≠ some ',') : clean a = a := by
  have e1 : a.takeWhile (· ≠ '!') = a := by
    apply takeWhile_self
    intro x hx; simp [(h1 x hx).1]
  have e2 : a.filter (fun c => !blank c) = a := by
    rw [List.filter_eq_self]; intro x hx; simp [(h1 x hx).2]
  have e3 : a.reverse.dropWhile (· = ',') = a.reverse := by
    rcases hr : a.reverse with _ | ⟨x, xs⟩
    · rfl
    · have : a.getLast? = some x := by rw [← List.head?_reverse, hr]; rfl
      have hx : x ≠ ',' := by rintro rfl; exact h2 this
      simp [hx]
  unfold clean; rw [e1, e2, e3]; simp

/-! ## Namelists -/

/-- A namelist as written: header line, body, closing line. -/
structure Block where
  tag : Char
  name : Txt
  header : Txt
  body : List Txt
  term : Txt

/-- The header is the tag followed by the name, no body line starts with the tag or ends with a slash, and the
closing line does. -/
def Block.Ok (b : Block) : Prop :=
  (b.tag = '$' ∨ b.tag = '&') ∧ b.name ≠ [] ∧ b.tag ∉ b.name ∧ '=' ∉ b.name ∧ clean b.header = b.tag :: b.name ∧
  (∀ l ∈ b.body, (clean l).head? ≠ some b.tag ∧ (clean l).getLast? ≠ some '/') ∧
  ((clean b.term).head? = some b.tag ∨ (clean b.term).getLast? = some '/')

/-- The lines of the block in the file. -/
def Block.lines (b : Block) : List Txt := b.header :: b.body ++ [b.term]

/-- What the block asks for: the assignments of its lines, all under its own name. -/
def Block.acts (b : Block) : List Act :=
  b.body.flatMap (fun l => lineActs b.name (clean l)) ++ lineActs b.name ((clean b.term).filter (· ≠ '/'))

theorem step_header (b : Block) (h : b.Ok) : deckStep closed b.header = ([], ⟨b.name, some b.tag⟩) := by
  obtain ⟨ht, hn, htn, he, hh, -, -⟩ := h
  have hs : splitChar b.tag (b.tag :: b.name) = [[], b.name] := by
    have := splitChar_sep b.tag [] (by simp) b.name
    simpa [splitChar_single _ _ htn] using this
  have hte : '=' ≠ b.tag := by rcases ht with e | e <;> rw [e] <;> decide
  have hl := line_without_eq b.name (b.tag :: b.name) (by simp [he, hte])
  unfold deckStep
  rw [hh]
  simp only [ht, closed, and_self, if_true, hs]
  rcases hb : b.name with _ | ⟨c, cs⟩
  · exact absurd hb hn
  · rw [hb] at hl; simp [hl]

theorem step_body (b : Block) (h : b.Ok) (l : Txt) (hl : l ∈ b.body) :
    deckStep ⟨b.name, some b.tag⟩ l = (lineActs b.name (clean l), ⟨b.name, some b.tag⟩) := by
  obtain ⟨h1, h2⟩ := h.2.2.2.2.2.1 l hl
  unfold deckStep
  rcases hc : clean l with _ | ⟨c, cs⟩
  · simp [lineActs, splitChar]
  · rw [hc] at h1 h2
    have : ¬ (some c = some b.tag ∨ (c :: cs).getLast? = some '/') := by
      rintro (e | e)
      · exact h1 (by simpa using e)
      · exact h2 e
    simp only [reduceCtorEq, and_false, if_false, this]

theorem step_term (b : Block) (h : b.Ok) :
    deckStep ⟨b.name, some b.tag⟩ b.term = (lineActs b.name ((clean b.term).filter (· ≠ '/')), closed) := by
  have ht := h.2.2.2.2.2.2
  unfold deckStep
  rcases hc : clean b.term with _ | ⟨c, cs⟩
  · rw [hc] at ht; simp at ht
  · rw [hc] at ht
    have : some c = some b.tag ∨ (c :: cs).getLast? = some '/' := by simpa using ht
    simp only [reduceCtorEq, and_false, if_false, this, if_true]

theorem deckActs_append (st : NLState) (l m : List Txt) :
    deckActs st (l ++ m) = deckActs st l ++ deckActs (deckEnd st l) m := by
  induction l generalizing st with
  | nil => simp [deckActs, deckEnd]
  | cons x l ih => simp [deckActs, deckEnd, ih, List.append_assoc]

theorem deckEnd_append (st : NLState) (l m : List Txt) : deckEnd st (l ++ m) = deckEnd (deckEnd st l) m := by
  induction l generalizing st with
  | nil => simp [deckEnd]
  | cons x l ih => simp [deckEnd, ih]

theorem block_body (b : Block) (h : b.Ok) (ls : List Txt) (hs : ∀ l ∈ ls, l ∈ b.body) :
    deckActs ⟨b.name, some b.tag⟩ ls = ls.flatMap (fun l => lineActs b.name (clean l)) ∧
    deckEnd ⟨b.name, some b.tag⟩ ls = ⟨b.name, some b.tag⟩ := by
  induction ls with
  | nil => simp [deckActs, deckEnd]
  | cons l ls ih =>
    have := ih (fun x hx => hs x (List.mem_cons_of_mem _ hx))
    simp [deckActs, deckEnd, step_body b h l (hs l (by simp)), this.1, this.2]

theorem block_acts (b : Block) (h : b.Ok) : deckActs closed b.lines = b.acts ∧ deckEnd closed b.lines = closed := by
  obtain ⟨h1, h2⟩ := block_body b h b.body (fun _ hl => hl)
  constructor
  · rw [Block.lines, List.cons_append, deckActs, step_header b h]
    simp [deckActs_append, h1, h2, deckActs, step_term b h, Block.acts]
  · rw [Block.lines, List.cons_append, deckEnd, step_header b h]
    simp [deckEnd_append, h2, deckEnd, step_term b h]

/-- In a deck made of well formed namelists every assignment is read under the name of its own namelist, and no
namelist stays open. -/
theorem deck_blocks (bs : List Block) (h : ∀ b ∈ bs, b.Ok) :
    deckActs closed (bs.flatMap Block.lines) = bs.flatMap Block.acts ∧
    deckEnd closed (bs.flatMap Block.lines) = closed := by
  induction bs with
  | nil => simp [deckActs, deckEnd]
  | cons b bs ih =>
    have hb := block_acts b (h b (by simp))
    have := ih (fun x hx => h x (List.mem_cons_of_mem _ hx))
    simp only [List.flatMap_cons, deckActs_append, deckEnd_append, hb.1, hb.2, this.1, this.2, and_self]

/-- Lines outside namelists are read with an empty namelist name and open none. -/
theorem deck_outside (ls : List Txt)
    (h : ∀ l ∈ ls, (clean l).head? ≠ some '$' ∧ (clean l).head? ≠ some '&' ∧ (clean l).getLast? ≠ some '/') :
    deckActs closed ls = ls.flatMap (fun l => lineActs [] (clean l)) ∧ deckEnd closed ls = closed := by
  induction ls with
  | nil => simp [deckActs, deckEnd]
  | cons l ls ih =>
    obtain ⟨h1, h2, h3⟩ := h l (by simp)
    have := ih (fun x hx => h x (List.mem_cons_of_mem _ hx))
    have hs : deckStep closed l = (lineActs [] (clean l), closed) := by
      unfold deckStep
      rcases hc : clean l with _ | ⟨c, cs⟩
      · simp [lineActs, splitChar]
      · rw [hc] at h1 h2 h3
        have a1 : ¬ (c = '$' ∨ c = '&') := by
          rintro (e | e)
          · exact h1 (by simp [e])
          · exact h2 (by simp [e])
        simp only [a1, false_and, if_false, closed, reduceCtorEq, false_or, h3]
    simp [deckActs, deckEnd, hs, this.1, this.2]

/-! ## The whole deck -/

/-- A deck to be written: namelists (tag, name, and for each line its assignments). -/
structure Written where
  block : Block
  asgs : List (List Asg)

/-- Each body line holds its assignments, up to white space, comments and trailing commas; the closing line holds
none. -/
def Written.Ok (w : Written) : Prop :=
  w.block.Ok ∧ List.Forall₂ (fun l as => as ≠ [] ∧ (∀ x ∈ as, Asg.Ok x) ∧ clean l = render as) w.block.body w.asgs ∧
  '=' ∉ clean w.block.term

/-- The calls of `store` the deck asks for. -/
def Written.calls (w : Written) : List Act :=
  w.asgs.flatMap (fun as => as.map (fun x => .assign w.block.name x.name x.data))

theorem written_acts (w : Written) (h : w.Ok) : w.block.acts = w.calls := by
  obtain ⟨-, hf, ht⟩ := h
  have h2 := line_without_eq w.block.name ((clean w.block.term).filter (· ≠ '/'))
    (fun hm => ht (List.mem_of_mem_filter hm))
  rw [Block.acts, h2, List.append_nil, Written.calls]
  clear h2 ht
  generalize w.block.body = ls at hf
  generalize w.asgs = as at hf
  induction hf with
  | nil => simp
  | cons hx _ ih =>
    simp only [List.flatMap_cons]
    rw [hx.2.2, line_roundtrip _ _ hx.1 hx.2.1, ih]

/-- Parsing a written deck carries out exactly the written assignments, in order, each under its namelist and with
its data as written. -/
theorem parse_written {σ : Type} (store : Txt → Txt → Txt → σ → Except Err σ) (ws : List Written)
    (h : ∀ w ∈ ws, w.Ok) (s : σ) :
    parseInputFile store (ws.flatMap (fun w => w.block.lines)) s = runActs store (ws.flatMap Written.calls) s := by
  have h1 := (deck_blocks (ws.map Written.block) (by
    intro b hb
    obtain ⟨w, hw, rfl⟩ := List.mem_map.1 hb
    exact (h w hw).1)).1
  rw [List.flatMap_map, List.flatMap_map] at h1
  rw [parseInputFile, h1]
  congr 1
  clear h1
  induction ws with
  | nil => rfl
  | cons w ws ih =>
    simp only [List.flatMap_cons]
    rw [written_acts w (h w (by simp)), ih (fun x hx => h x (List.mem_cons_of_mem _ hx))]

/-- Without exceptions the calls are a fold over the assignments. -/
theorem runActs_fold {σ : Type} (f : Txt → Txt → Txt → σ → σ) (cs : List (Txt × Txt × Txt)) (s : σ) :
    runActs (fun ns n d s => .ok (f ns n d s)) (cs.map (fun c => .assign c.1 c.2.1 c.2.2)) s =
      .ok (cs.foldl (fun s c => f c.1 c.2.1 c.2.2 s) s) := by
  induction cs generalizing s with
  | nil => rfl
  | cons c cs ih => simp [runActs, ih]

/-- An exception inside a namelist is passed on, outside it becomes `RuntimeError`. -/
theorem runActs_error {σ : Type} (store : Txt → Txt → Txt → σ → Except Err σ) (ns n d : Txt) (rest : List Act) (s : σ)
    (e : Err) (h : store ns n d s = .error e) :
    runActs store (.assign ns n d :: rest) s = .error (if ns = [] then .runtimeError else e) := by
  simp [runActs, h]

/-! ## A deck -/

/-- `  wg = 175400., ARNGE = 3675 sla=0.5, ! comment` inside `$INGASP … $END`. -/
def exampleWritten : Written where
  block := { tag := '$', name := "INGASP".toList, header := " $INGASP".toList,
             body := ["  WG = 175400., ARNGE = 1,2, 3675 SLA=0.5, ! comment".toList], term := " $END".toList }
  asgs := [[⟨"WG".toList, [], "175400.".toList, true⟩, ⟨"ARNGE".toList, ["1".toList, "2".toList], "3675".toList, false⟩,
            ⟨"SLA".toList, [], "0.5".toList, true⟩]]

example : exampleWritten.Ok := by
  refine ⟨⟨by decide, by decide, by decide, by decide, by decide, ?_, by decide⟩, ?_, by decide⟩
  · intro l hl; simp [exampleWritten] at hl; subst hl; decide
  · refine List.Forall₂.cons ⟨by simp, ?_, by decide⟩ List.Forall₂.nil
    intro x hx
    simp at hx
    rcases hx with rfl | rfl | rfl <;>
    · refine ⟨⟨_, _, rfl, by decide⟩, by decide, by decide, by decide, by decide⟩

example : exampleWritten.calls =
    [.assign "INGASP".toList "WG".toList "175400.".toList, .assign "INGASP".toList "ARNGE".toList "1,2,3675".toList,
     .assign "INGASP".toList "SLA".toList "0.5".toList] := by decide

/-! ## Where written data is not read as written -/

/-- Values continued on the next line are lost. -/
theorem continuation_violated :
    deckActs closed ["$A".toList, "X=1,2,".toList, "3,4".toList, "$END".toList] =
      [.assign "A".toList "X".toList "1,2".toList] := by decide

/-- Without a comma a number in exponent notation is cut: the exponent becomes part of the next name. -/
theorem exponent_violated (ns : Txt) :
    lineActs ns (clean "A = 1E5 B = 2".toList) =
      [.assign ns "A".toList "1".toList, .assign ns "E5B".toList "2".toList] := by rfl

/-- Without a comma a logical value is lost: it becomes part of the next name. -/
theorem logical_violated (ns : Txt) :
    lineActs ns (clean "A = T B = 2".toList) = [.assign ns "A".toList [], .assign ns "TB".toList "2".toList] := by rfl

/-- Data on the header line is not read: white space is removed first, so name and data form one word. -/
theorem header_data_violated :
    deckActs closed ["$INGASP WG = 175400.".toList, "SLA = 0.5".toList, "$END".toList] =
      [.assign "INGASPWG=175400.".toList "$INGASPWG".toList "175400.".toList,
       .assign "INGASPWG=175400.".toList "SLA".toList "0.5".toList] := by decide

/-- A slash on the header line does not close the namelist but becomes part of its name. -/
theorem header_slash_violated : deckStep closed "&IN /".toList = ([], ⟨"IN/".toList, some '&'⟩) := by decide

/-- On the closing line the slashes inside units are removed as well. -/
theorem closing_units_violated :
    deckActs closed ["&IN".toList, "WGS = 110, lbf/ft**2 /".toList] =
      [.assign "IN".toList "WGS".toList "110,lbfft**2".toList] := by decide

/-- A tag alone on its line raises `IndexError`. -/
theorem bare_tag_violated : (deckStep closed " $ ".toList).1 = [.fail .indexError] := by decide

end Verif.Fortran
