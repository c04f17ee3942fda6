import Verif.Model.FortranStore

/-!
# Converting a legacy deck to an Aviary input file

Models the function `fortran_to_aviary` (/repo/aviary/utils/fortran_to_aviary.py:41-184) around `parse_input_file` and
`process_and_store_data`, with the rows that `csv.writer` puts in the file.
Simplifications: printing is left out; the text of a float (`repr`) is a parameter; the updates of the options
(lines 125-129) are a parameter; paths are lists of parts with a flag for absolute ones, without links
and `..`.
-/

namespace Verif.Fortran

/-! ## Rows of the file -/

/-- `str(v)` as `csv.writer` writes it; `None` becomes empty (aviary/utils/fortran_to_aviary.py:170, 184).  Other containers
do not occur in the stored lists. -/
def cellText (sf : ℚ → Txt) : PVal → Txt
  | .none => []
  | .bool true => "True".toList
  | .bool false => "False".toList
  | .int i => (toString i).toList
  | .float q => sf q
  | .str s => s.toList
  | _ => []

/-- Characters that make `csv.writer` put a field in quotes. Part of the model of aviary/utils/fortran_to_aviary.py:162-184. -/
def special (c : Char) : Bool := c = ',' || c = '"' || c = '\n' || c = '\r'

/-- Quotes inside a quoted field are doubled. Part of the model of aviary/utils/fortran_to_aviary.py:162-184. -/
def doubleQuotes : Txt → Txt
  | [] => []
  | c :: cs => if c = '"' then '"' :: '"' :: doubleQuotes cs else c :: doubleQuotes cs

/-- One field of `csv.writer` (minimal quoting). Part of the model of aviary/utils/fortran_to_aviary.py:162-184. -/
def csvField (s : Txt) : Txt := if s.any special then '"' :: doubleQuotes s ++ ['"'] else s

/-- One row of `csv.writer`. Part of the model of aviary/utils/fortran_to_aviary.py:162-184. -/
def csvRow (cells : List Txt) : Txt := joinChar ',' (cells.map csvField) ++ ['\r', '\n']

/-- Order of texts by code points (`sorted`, aviary/utils/fortran_to_aviary.py:169, 176, 183). -/
def txtLe : Txt → Txt → Bool
  | [], _ => true
  | _ :: _, [] => false
  | a :: as, b :: bs => if a = b then txtLe as bs else decide (a.toNat < b.toNat)

/-- Insert an entry before the first one with a greater name.
Part of the model of aviary/utils/fortran_to_aviary.py:169, 176, 183. -/
def insertEntry {α : Type} (e : Txt × α) : List (Txt × α) → List (Txt × α)
  | [] => [e]
  | f :: fs => if txtLe e.1 f.1 then e :: f :: fs else f :: insertEntry e fs

/-- `sorted(values)`: names are keys of a dictionary, so the order is that of the names
(aviary/utils/fortran_to_aviary.py:169, 176, 183). -/
def sortEntries {α : Type} : List (Txt × α) → List (Txt × α)
  | [] => []
  | e :: es => insertEntry e (sortEntries es)

/-- aviary/utils/fortran_to_aviary.py:169-170: the row of an input value. -/
def inputRow (sf : ℚ → Txt) (e : Txt × List PVal × String) : Txt :=
  csvRow (e.1 :: e.2.1.map (cellText sf) ++ [e.2.2.toList])

/-- aviary/utils/fortran_to_aviary.py:176-178: the row of an initial guess. -/
def guessRow (sf : ℚ → Txt) (e : Txt × PVal) : Txt := csvRow [e.1, cellText sf e.2]

/-- aviary/utils/fortran_to_aviary.py:183-184: the row of a value that was not converted. -/
def unusedRow (sf : ℚ → Txt) (e : Txt × List PVal × String) : Txt := csvRow (e.1 :: e.2.1.map (cellText sf))

/-- aviary/utils/fortran_to_aviary.py:161-184: the lines of the file. -/
def fileLines (sf : ℚ → Txt) (gasp : Bool) (comments : List Txt) (v : Vehicle) : List Txt :=
  comments.map (fun c => csvRow [c]) ++ [csvRow [], csvRow ["# Input Values".toList]] ++
  (sortEntries v.input).map (inputRow sf) ++
  (if gasp then [csvRow [], csvRow ["# Initialization Guesses".toList]] ++ (sortEntries v.guesses).map (guessRow sf)
   else []) ++
  [csvRow [], csvRow ["# Unconverted Values".toList]] ++ (sortEntries v.unused).map (unusedRow sf)

/-! ## The conversion -/

/-- The dictionary of guesses at import (aviary/utils/fortran_to_aviary.py:1454-1465). -/
def guessesInit : Dict Txt PVal := guessNames.map (fun n => (n, .int 0))

/-- aviary/utils/fortran_to_aviary.py:99-113: one legacy default; its name is split at the dot. -/
def storeDefault (rt : TxtRT) (cv : Conv) (st : Vehicle) (d : Txt × Txt) : Except Err Vehicle :=
  match splitChar '.' d.1 with
  | ns :: name :: _ => store rt cv ns name d.2 st
  | _ => .error .indexError

/-- `Settings.EQUATIONS_OF_MOTION` (aviary/utils/fortran_to_aviary.py:138). -/
def eomName : Txt := "settings:equations_of_motion".toList

/-- `Settings.MASS_METHOD` (aviary/utils/fortran_to_aviary.py:139). -/
def massName : Txt := "settings:mass_method".toList

/-- `Settings.AERODYNAMICS_METHOD` (aviary/utils/fortran_to_aviary.py:140). -/
def aeroName : Txt := "settings:aerodynamics_method".toList

/-- aviary/utils/fortran_to_aviary.py:131-140: the settings that name the legacy code. -/
def addSettings (gasp : Bool) (d : LV) : LV :=
  let method : List PVal := [.str (if gasp then "GASP" else "FLOPS")]
  ((d.set eomName ([.str (if gasp then "2DOF" else "energy_state")], "unitless")).set massName
    (method, "unitless")).set aeroName (method, "unitless")

/-- aviary/utils/fortran_to_aviary.py:60-140: defaults, deck, updates of the options, settings.  `g` is the dictionary of
guesses of the module, which every call shares (line 63). -/
def convertDeck (rt : TxtRT) (cv : Conv) (update : LV → Except Err LV) (defaults : List (Txt × Txt)) (lines : List Txt)
    (g : Dict Txt PVal) : Except Err Vehicle := do
  let v ← defaults.foldlM (storeDefault rt cv) ⟨[], [], g⟩
  let v ← parseInputFile (store rt cv) lines v
  let d ← update v.input
  .ok { v with input := addSettings cv.gasp d }

/-! ## The path of the file -/

/-- A path: absolute or relative to the working directory. Part of the model of aviary/utils/fortran_to_aviary.py:78-82, 142-158. -/
structure OutPath where
  absolute : Bool
  parts : List String
  deriving DecidableEq, Repr

/-- `dir / p`: an absolute `p` replaces `dir`. Part of the model of aviary/utils/fortran_to_aviary.py:144. -/
def OutPath.under (dir p : OutPath) : OutPath := if p.absolute then p else ⟨dir.absolute, dir.parts ++ p.parts⟩

/-- aviary/utils/fortran_to_aviary.py:78-82 and 142-150: the file that is written, for a deck `stem` in the directory `dir`.
`cwd` is the working directory, `isFile` tells which absolute paths are files. -/
def outputPath (cwd : OutPath) (isFile : OutPath → Bool) (dir : OutPath) (stem : String) (given : Option OutPath)
    (force : Bool) : Except Err OutPath :=
  let p0 := match given with
    | some p => p
    | none => (cwd.under dir).under ⟨false, [stem ++ "_converted.csv"]⟩
  let p := if isFile (cwd.under p0) then p0 else dir.under p0
  if isFile (cwd.under p) && !force then .error .runtimeError else .ok (cwd.under p)

/-- aviary/utils/fortran_to_aviary.py:41-184: the whole call.  The files are a dictionary from paths to lines; `legacy` is
`None` when the caller does not name a code (line 75 raises `AttributeError`); the conversion comes before the check of
the path. -/
def fortranToAviary (sf : ℚ → Txt) (rt : TxtRT) (cv : Conv) (named : Bool) (update : LV → Except Err LV)
    (defaults : List (Txt × Txt)) (comments lines : List Txt) (cwd dir : OutPath) (stem : String) (given : Option OutPath)
    (force : Bool) (g : Dict Txt PVal) (fs : Dict OutPath (List Txt)) : Except Err (Dict OutPath (List Txt)) := do
  if !named then .error .attributeError else
  let v ← convertDeck rt cv update defaults lines g
  let p ← outputPath cwd fs.has dir stem given force
  .ok (fs.set p (fileLines sf cv.gasp comments v))

end Verif.Fortran
