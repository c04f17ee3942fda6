import Verif.Model.AviaryValues

/-!
# Aircraft input decks

Models /repo/aviary/utils/process_input_decks.py:60-301 (`create_vehicle`, `parse_inputs`,
`update_dependent_options`) and /repo/aviary/utils/functions.py:94-129 (`convert_strings_to_data`).

Text is a list of characters.  `int(text)`, `float(text)` and `valid_units(text)` are parameters.
-/

namespace Verif

/-- `Txt`: part of the model of aviary/utils/process_input_decks.py:169. -/
abbrev Txt := List Char

/-- `str.isspace` characters that occur in decks (simplification: ASCII white space).
Part of the model of aviary/utils/process_input_decks.py:169. -/
def blank (c : Char) : Bool := c = ' ' || c = '\t' || c = '\n' || c = '\r'

/-- `s.strip(chars)` for a character class. Part of the model of aviary/utils/process_input_decks.py:169. -/
def stripBy (p : Char → Bool) (s : Txt) : Txt := ((s.dropWhile p).reverse.dropWhile p).reverse

/-- `s.strip()`. Part of the model of aviary/utils/process_input_decks.py:169. -/
def strip (s : Txt) : Txt := stripBy blank s

/-- `s.split(',')`. Part of the model of aviary/utils/process_input_decks.py:169. -/
def splitComma : Txt → List Txt
  | [] => [[]]
  | c :: cs =>
    if c = ',' then [] :: splitComma cs
    else match splitComma cs with
      | h :: t => (c :: h) :: t
      | [] => [[c]]

/-- aviary/utils/process_input_decks.py:165-166: the part of the line before the first `#`. -/
def beforeHash (line : Txt) : Txt := line.takeWhile (fun c => c ≠ '#')

/-- aviary/utils/process_input_decks.py:169: `[dat.strip() for dat in line.split(',') if dat.strip() != '']`. -/
def deckTokens (line : Txt) : List Txt :=
  ((splitComma (beforeHash line)).map strip).filter (fun t => t ≠ [])

/-- Python text functions used on deck entries. Part of the model of aviary/utils/functions.py:113-125. -/
structure TxtRT where
  pyInt : Txt → Option Int
  pyFloat : Txt → Option ℚ
  validUnits : Txt → Bool

/-- ASCII lower case (`str.lower`). Part of the model of aviary/utils/functions.py:113-125. -/
def lower (s : Txt) : Txt := s.map Char.toLower

/-- aviary/utils/functions.py:113-125, one entry of `convert_strings_to_data`. -/
def convertEntry (rt : TxtRT) (s : Txt) : PVal :=
  let dat := stripBy (fun c => c = '[' || c = ']') s
  let num : Option PVal :=
    if '.' ∈ dat then (rt.pyFloat dat).map .float else (rt.pyInt dat).map .int
  match num with
  | some v => v
  | none =>
    if lower dat = "true".toList then .bool true
    else if lower dat = "false".toList then .bool false
    else .str (String.ofList dat)

/-- One deck line after tokenisation: the name, the raw values and the units entry if there is one
(aviary/utils/process_input_decks.py:179-182).  `IndexError` when nothing follows the name. -/
def splitUnits (rt : TxtRT) : List Txt → Except Err (Txt × List Txt × Option Txt)
  | [] => .error .indexError
  | name :: rest => match rest.getLast? with
    | none => .error .indexError            -- `data_list[-1]` on an empty list, line 180
    | some u => if rt.validUnits u then .ok (name, rest.dropLast, some u) else .ok (name, rest, none)

/-- aviary/utils/process_input_decks.py:184-193: the stored value. -/
def deckValue (rt : TxtRT) (multi : Bool) (raw : List Txt) : Except Err PVal :=
  match raw.map (convertEntry rt) with
  | [] => .error .indexError                -- `var_value[0]` of an empty list, lines 190, 193
  | [v] =>
    if multi then
      match v with                          -- lines 188-191; `bool` is an `int` instance
      | .int i => .ok (.arrI [i])
      | .float q => .ok (.arrF [q])
      | .bool b => .ok (.arrO [.bool b])
      | v => .ok (.list [v])
    else .ok v
  | vs => .ok (.list vs)

/-- State of `parse_inputs`: the option container and the initial guesses.
Part of the model of aviary/utils/process_input_decks.py:162-218. -/
structure DeckState where
  values : NV
  guesses : Dict String PVal

/-- `guessPrefix`: part of the model of aviary/utils/process_input_decks.py:162-218. -/
def guessPrefix : Txt := "initialization_guesses:".toList

/-- aviary/utils/process_input_decks.py:162-218, one line.  `guessNames` is fixed before the loop (line 158). -/
def deckLine (db : UnitDB) (prt : PyRT) (rt : TxtRT) (md : Dict String Meta) (guessNames : List String)
    (st : DeckState) (line : Txt) : Except Err DeckState :=
  match deckTokens line with
  | [] => .ok st
  | toks => do
    let (name, raw, units) ← splitUnits rt toks
    let key := String.ofList name
    let m := Dict.get? md key
    let v ← deckValue rt (match m with
      | some m => m.multivalue
      | none => false) raw
    match m with
    | some m =>
      let u := match units with
        | some u => String.ofList u
        | none => m.units
      let vals ← avSet db prt md st.values key v (some u)
      .ok { st with values := vals }
    | none =>
      if key ∈ guessNames then .ok { st with guesses := Dict.set st.guesses key v }
      else if guessPrefix <+: name then
        .ok { st with guesses := Dict.set st.guesses (String.ofList (name.drop guessPrefix.length)) v }
      else .ok st                            -- lines 211-217 (warning only) and fall through

/-- aviary/utils/process_input_decks.py:132-218 `parse_inputs` on the lines of a file. -/
def parseDeck (db : UnitDB) (prt : PyRT) (rt : TxtRT) (md : Dict String Meta) (st : DeckState)
    (lines : List Txt) : Except Err DeckState :=
  lines.foldlM (deckLine db prt rt md (Dict.keys st.guesses)) st

/-! ## Verbosity in `create_vehicle` -/

/-- aviary/utils/process_input_decks.py:70-71 and 118-127: the verbosity stored by `create_vehicle` as a function of the
`verbosity` argument and of what the deck stored.  BRIEF = 1. -/
def storedVerbosity (arg : Option Int) (fromDeck : Option Int) (metaDefault : Int) : Int :=
  let arg := match arg with
    | none => some 1        -- lines 70-71
    | some v => some v
  match arg with
  | some v => v             -- lines 120-122
  | none => match fromDeck with
    | some v => v
    | none => metaDefault   -- lines 124-127

/-! ## Dependent options -/

/-- One entry of `dependent_options` (aviary/variable_info/options / aviary/utils/process_input_decks.py:275-300). -/
structure Dependency where
  relation : String
  val : PVal
  result : PVal
  alternate : PVal
  target : String

/-- aviary/utils/process_input_decks.py:262-301 `update_dependent_options`, with comparison operators as a parameter:
`ops r` is `operation_dict.get(r)`, `isIn` is Python's `in`.  The local variable `outcome` survives from one
iteration to the next (`prev`); reading it before any assignment raises `UnboundLocalError`. -/
def updateDependent (ops : String → Option (PVal → PVal → Bool)) (isIn : PVal → PVal → Bool)
    (setter : NV → String → PVal → Except Err NV) :
    List (String × Dependency) → Option PVal → NV → Except Err NV
  | [], _, s => .ok s
  | (name, d) :: rest, prev, s =>
    match Dict.get? s name with
    | none => updateDependent ops isIn setter rest prev s
    | some (v, _) =>
      let outcome : Option PVal :=
        match ops d.relation with
        | some comp => some (if comp v d.val then d.result else d.alternate)
        | none =>
          if d.relation = "in" then some (if isIn v d.val then d.result else d.alternate)
          else prev
      match outcome with
      | none => .error .unboundLocal
      | some o => match setter s d.target o with
        | .error e => .error e
        | .ok s' => updateDependent ops isIn setter rest (some o) s'

end Verif
