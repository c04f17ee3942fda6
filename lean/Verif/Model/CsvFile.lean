import Verif.Model.InputDeck

/-!
# Aviary csv data files

Models /repo/aviary/utils/csv_data_file.py:17-217 (`read_data_file`) and 223-340 (`write_data_file`) on the lines
of a file.  `float(text)`, `valid_units`, `is_compatible` and the alias lookup are parameters; warnings are
not modelled; comments are dropped.
-/

namespace Verif

/-- `re.split('[...]', s)` for a one-character class. Part of the model of /repo/aviary/utils/csv_data_file.py:17-217. -/
def splitP (p : Char → Bool) : Txt → List Txt
  | [] => [[]]
  | c :: cs =>
    if p c then [] :: splitP p cs
    else match splitP p cs with
      | h :: t => (c :: h) :: t
      | [] => [[c]]

/-- Negative look-ahead `(?![^()]*\))` of aviary/utils/csv_data_file.py:91 failing: the next parenthesis is a closing one. -/
def nextClose (s : Txt) : Bool := s.find? (fun c => c = '(' || c = ')') = some ')'

/-- Split points of aviary/utils/csv_data_file.py:91: `;` or `,` not inside parentheses. -/
def splitRaw : Txt → List Txt
  | [] => [[]]
  | c :: cs =>
    if (c = ';' || c = ',') && !nextClose cs then [] :: splitRaw cs
    else match splitRaw cs with
      | h :: t => (c :: h) :: t
      | [] => [[c]]

/-- aviary/utils/csv_data_file.py:91 `re.split(r'[;,]\s*(?![^()]*\))', s)`: the white space after a split point belongs to the
delimiter. -/
def splitDelim (s : Txt) : List Txt :=
  match splitRaw s with
  | h :: t => h :: t.map (fun w => w.dropWhile blank)
  | [] => []

/-- A header cell after aviary/utils/csv_data_file.py:107-110: name with blanks replaced by underscores, and the remaining parts. -/
def headerParts (cell : Txt) : Txt × List Txt :=
  match (splitP (fun c => c = '(' || c = ',') cell).map (stripBy (fun c => c = ')' || c = ' ')) with
  | [] => ([], [])
  | n :: ps => (n.map (fun c => if blank c then '_' else c), ps)

/-- External services used by the reader. Part of the model of /repo/aviary/utils/csv_data_file.py:17-217. -/
structure CsvRT where
  pyFloat : Txt → Option ℚ
  validUnits : Txt → Bool
  compat : Txt → Txt → Bool
  /-- reverse alias lookup of aviary/utils/csv_data_file.py:111-116 (the identity when no aliases are given) -/
  alias_ : Txt → Txt

/-- `unitless`: part of the model of /repo/aviary/utils/csv_data_file.py:17-217. -/
def unitless : Txt := "unitless".toList
/-- `inputLbl`: part of the model of /repo/aviary/utils/csv_data_file.py:17-217. -/
def inputLbl : Txt := "input".toList
/-- `outputLbl`: part of the model of /repo/aviary/utils/csv_data_file.py:17-217. -/
def outputLbl : Txt := "output".toList

/-- What reading one header cell yields: skipped, or name, units and label.
Part of the model of /repo/aviary/utils/csv_data_file.py:17-217. -/
inductive HdrOut
  | skip
  | col (name units : Txt) (label : Option Bool)   -- label: some true = input, some false = output

/-- aviary/utils/csv_data_file.py:107-185 for one header cell; `md` maps known names to their default units.
Simplification: columns literally named "input" or "output" are not treated specially. -/
def headerCell (rt : CsvRT) (md : Option (Dict Txt Txt)) (cell : Txt) : Except Err HdrOut :=
  let (raw, parts) := headerParts cell
  let name := rt.alias_ raw
  let known : Option Txt := match md with
    | none => some unitless
    | some d => Dict.get? d name
  match known with
  | none => .ok .skip
  | some dflt =>
    let lab : Except Err (Option Bool × List Txt) :=
      if inputLbl ∈ parts then
        if outputLbl ∈ parts then .error .userWarning
        else .ok (some true, parts.erase inputLbl)
      else if outputLbl ∈ parts then .ok (some false, parts.erase outputLbl)
      else .ok (none, parts)
    match lab with
    | .error e => .error e
    | .ok (label, ps) =>
      match ps.head?, ps.getLast? with
      | some u1, some u =>
        if rt.validUnits u1 then
          if md.isSome && !rt.compat u dflt then .error .valueError
          else .ok (.col name u label)
        else .error .valueError
      | _, _ => .ok (.col name dflt label)

/-- Header under construction: units by name, column indices of accepted cells, labels.
Part of the model of /repo/aviary/utils/csv_data_file.py:17-217. -/
structure Hdr where
  units : Dict Txt Txt
  idx : List Nat
  inputs : List Txt
  outputs : List Txt

/-- The loop over the cells of a header line, aviary/utils/csv_data_file.py:106-188. -/
def headerLoop (rt : CsvRT) (md : Option (Dict Txt Txt)) : List Txt → Nat → Hdr → Except Err Hdr
  | [], _, h => .ok h
  | c :: cs, i, h =>
    match headerCell rt md c with
    | .error e => .error e
    | .ok .skip => headerLoop rt md cs (i + 1) h
    | .ok (.col n u l) =>
      headerLoop rt md cs (i + 1)
        { units := Dict.set h.units n u
          idx := h.idx ++ [i]
          inputs := if l = some true then h.inputs ++ [n] else h.inputs
          outputs := if l = some false then h.outputs ++ [n] else h.outputs }

/-- `CsvState`: part of the model of /repo/aviary/utils/csv_data_file.py:17-217. -/
structure CsvState where
  hdr : Option Hdr
  check : Bool
  raw : Dict Txt (List ℚ)

/-- aviary/utils/csv_data_file.py:203-205: `raw_data[variable].append(line_data[valid_indices[idx]])` for each header key. -/
def appendRow (qs : List ℚ) : List Txt → List Nat → Dict Txt (List ℚ) → Except Err (Dict Txt (List ℚ))
  | [], _, raw => .ok raw
  | _ :: _, [], _ => .error .indexError
  | n :: ns, i :: is, raw =>
    match qs[i]? with
    | none => .error .indexError
    | some q => appendRow qs ns is (Dict.set raw n ((Dict.get? raw n).getD [] ++ [q]))

/-- aviary/utils/csv_data_file.py:80-205 for one line of the file. -/
def readLine (rt : CsvRT) (md : Option (Dict Txt Txt)) (st : CsvState) (line : Txt) : Except Err CsvState :=
  let cells := splitDelim (strip (beforeHash line))
  if cells = [[]] then .ok st
  else match (cells.filter (fun c => c ≠ [])).mapM rt.pyFloat with
    | some qs => match st.hdr with
      | none => .error .unboundLocal              -- `header` is not assigned yet, line 203
      | some h => match appendRow qs (Dict.keys h.units) h.idx st.raw with
        | .error e => .error e
        | .ok raw => .ok { st with check := false, raw := raw }
    | none =>
      if st.check then
        match headerLoop rt md cells 0 ⟨[], [], [], []⟩ with
        | .error e => .error e
        | .ok h => if h.units = [] then .error .valueError
          else .ok { hdr := some h, check := false, raw := (Dict.keys h.units).map (fun n => (n, [])) }
      else .error .valueError

/-- The result of `read_data_file`. Part of the model of /repo/aviary/utils/csv_data_file.py:17-217. -/
structure CsvResult where
  data : List (Txt × Txt × List ℚ)      -- name, units, column
  inputs : List Txt
  outputs : List Txt

/-- `read_data_file`, aviary/utils/csv_data_file.py:17-217. -/
def readFile (rt : CsvRT) (md : Option (Dict Txt Txt)) (lines : List Txt) : Except Err CsvResult := do
  let st ← lines.foldlM (readLine rt md) ⟨none, true, []⟩
  match st.hdr with
  | none => .error .unboundLocal                  -- line 208
  | some h => .ok { data := h.units.map (fun p => (p.1, p.2, (Dict.get? st.raw p.1).getD []))
                    inputs := h.inputs
                    outputs := h.outputs }

/-! ## Writing -/

/-- Information in parentheses after a column name, aviary/utils/csv_data_file.py:289-303. -/
def infoParts (units : Txt) (label : Option Bool) : List Txt :=
  (if units = unitless then [] else [units]) ++
  (match label with
    | none => []
    | some true => [inputLbl]
    | some false => [outputLbl])

/-- `', '.join(parts)`. Part of the model of /repo/aviary/utils/csv_data_file.py:17-217. -/
def joinComma : List Txt → Txt
  | [] => []
  | [w] => w
  | w :: ws => w ++ ',' :: ' ' :: joinComma ws

/-- One header cell, aviary/utils/csv_data_file.py:305: `var + f' ({var_info})'`. -/
def headerText (name units : Txt) (label : Option Bool) : Txt :=
  match infoParts units label with
  | [] => name
  | ps => name ++ ' ' :: '(' :: (joinComma ps ++ [')'])

/-- Leading blanks (the column padding of aviary/utils/csv_data_file.py:311-333; the widths are arbitrary here). -/
def padded (n : Nat) (s : Txt) : Txt := List.replicate n ' ' ++ s

/-- A column to be written. Part of the model of /repo/aviary/utils/csv_data_file.py:17-217. -/
structure Column where
  name : Txt
  units : Txt
  label : Option Bool
  values : List ℚ

/-- Lines of the file, aviary/utils/csv_data_file.py:286-340: the header line, then one line per row.  `w i j` is the padding of cell
`j` of line `i` and `str` is Python's `str(float)`. -/
def writeFile (str : ℚ → Txt) (w : Nat → Nat → Nat) (cols : List Column) (nrows : Nat) : List Txt :=
  joinComma (cols.mapIdx (fun j c => padded (w 0 j) (headerText c.name c.units c.label))) ::
  (List.range nrows).map (fun r =>
    joinComma (cols.mapIdx (fun j c => padded (w (r + 1) j) (str (c.values.getD r 0)))))

end Verif
