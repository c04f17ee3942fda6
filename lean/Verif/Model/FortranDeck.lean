import Verif.Model.InputDeck

/-!
# Reading legacy (FLOPS, GASP) namelist decks

Models `parse_input_file` (/repo/aviary/utils/fortran_to_aviary.py:187-297).  Text is a list of characters.
Simplifications: `str.isalpha` and white space are those of ASCII; messages and printing are left out.
-/

namespace Verif.Fortran

/-- `s.split(d)` for a one-character separator. Part of the model of aviary/utils/fortran_to_aviary.py:253-292. -/
def splitChar (d : Char) : Txt → List Txt
  | [] => [[]]
  | c :: cs =>
    if c = d then [] :: splitChar d cs
    else match splitChar d cs with
      | h :: t => (c :: h) :: t
      | [] => [[c]]

/-- `d.join(parts)` for a one-character separator. Part of the model of aviary/utils/fortran_to_aviary.py:253-292. -/
def joinChar (d : Char) : List Txt → Txt
  | [] => []
  | [s] => s
  | s :: rest => s ++ d :: joinChar d rest

/-- aviary/utils/fortran_to_aviary.py:208-212: the line up to the first `!`, without white space and without trailing
commas. -/
def clean (line : Txt) : Txt :=
  (((line.takeWhile (· ≠ '!')).filter (fun c => !blank c)).reverse.dropWhile (· = ',')).reverse

/-- `str.isalpha` of one character (ASCII). Part of the model of aviary/utils/fortran_to_aviary.py:253-292. -/
def alpha (c : Char) : Bool := c.isAlpha

/-- What a line asks for: store `data` under `name` in namelist `ns`, or raise.
Part of the model of aviary/utils/fortran_to_aviary.py:253-292. -/
inductive Act
  | assign (ns name data : Txt)
  | fail (e : Err)
  deriving DecidableEq, Repr

/-- aviary/utils/fortran_to_aviary.py:253-292: the pieces after each `=` of a line with several of them.  The last piece is
data only; the others end with the name of the next variable (lines 258-267), and an empty last entry raises
`IndexError` (line 261). -/
def pieces (ns : Txt) : Txt → List Txt → List Act
  | _, [] => []
  | name, [last] => [.assign ns name (joinChar ',' (splitChar ',' last))]
  | name, s :: rest =>
    let subs := splitChar ',' s
    match subs.getLastD [] with
    | [] => [.fail .indexError]
    | c :: cs =>
      if alpha c then .assign ns name (joinChar ',' subs.dropLast) :: pieces ns (c :: cs) rest
      else .assign ns name (joinChar ',' (subs.dropLast ++ [(c :: cs).takeWhile (fun x => !alpha x)])) ::
        pieces ns ((c :: cs).dropWhile (fun x => !alpha x)) rest

/-- aviary/utils/fortran_to_aviary.py:224-292: the assignments of a cleaned line.  A line without `=` asks for nothing. -/
def lineActs (ns : Txt) (line : Txt) : List Act :=
  match splitChar '=' line with
  | [] => []
  | [_] => []
  | [name, data] => [.assign ns name data]
  | name :: rest => pieces ns name rest

/-- The namelist being read: its name and the character that opened it (aviary/utils/fortran_to_aviary.py:204). -/
structure NLState where
  ns : Txt
  tag : Option Char
  deriving DecidableEq, Repr

/-- No namelist is open. Part of the model of aviary/utils/fortran_to_aviary.py:206-295. -/
def closed : NLState := ⟨[], none⟩

/-- aviary/utils/fortran_to_aviary.py:206-295: one line of the deck. -/
def deckStep (st : NLState) (raw : Txt) : List Act × NLState :=
  match clean raw with
  | [] => ([], st)                                                   -- lines 213-214
  | c :: cs =>
    if (c = '$' ∨ c = '&') ∧ st.tag = none then                      -- lines 217-219
      match (splitChar c (c :: cs)).getD 1 [] with
      | [] => ([.fail .indexError], st)                              -- `''.split()[0]`
      | name => (lineActs name (c :: cs), ⟨name, some c⟩)
    else if some c = st.tag ∨ (c :: cs).getLast? = some '/' then     -- lines 220-222, 294-295
      (lineActs st.ns ((c :: cs).filter (· ≠ '/')), closed)
    else (lineActs st.ns (c :: cs), st)

/-- The loop over the lines of the file (aviary/utils/fortran_to_aviary.py:205). -/
def deckActs : NLState → List Txt → List Act
  | _, [] => []
  | st, l :: ls => (deckStep st l).1 ++ deckActs (deckStep st l).2 ls

/-- The namelist that is open after the lines. Part of the model of aviary/utils/fortran_to_aviary.py:205. -/
def deckEnd : NLState → List Txt → NLState
  | st, [] => st
  | st, l :: ls => deckEnd (deckStep st l).2 ls

/-- Carrying out the assignments in order with `store` (`process_and_store_data`), aviary/utils/fortran_to_aviary.py:230-251 and 270-291:
an exception outside any namelist becomes `RuntimeError`. -/
def runActs {σ : Type} (store : Txt → Txt → Txt → σ → Except Err σ) : List Act → σ → Except Err σ
  | [], s => .ok s
  | .fail e :: _, _ => .error e
  | .assign ns name data :: rest, s =>
    match store ns name data s with
    | .ok s' => runActs store rest s'
    | .error e => .error (if ns = [] then .runtimeError else e)

/-- aviary/utils/fortran_to_aviary.py:187-297 `parse_input_file`. -/
def parseInputFile {σ : Type} (store : Txt → Txt → Txt → σ → Except Err σ) (lines : List Txt) (s : σ) :
    Except Err σ := runActs store (deckActs closed lines) s

end Verif.Fortran
