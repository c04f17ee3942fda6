import Verif.Model.FortranDeck

/-!
# Storing the assignments of a legacy deck

Models `process_and_store_data`, `set_value` and `update_name` (/repo/aviary/utils/fortran_to_aviary.py:300-477).
Names are lists of characters.  Every stored value is a Python list (lines 332, 416, 429), so the containers map
names to a list of values and units; `None` or empty units are `""`.
Simplifications: printing is left out; two names that were given the same list object do not share it; names contain
no regular-expression operator other than `.`, `(` and `)`, and the parentheses of an index are balanced.
-/

namespace Verif.Fortran

/-- `vehicle_data['input_values']` and `vehicle_data['unused_values']` (aviary/utils/fortran_to_aviary.py:61-62). -/
abbrev LV := Dict Txt (List PVal × String)

/-- `vehicle_data` (aviary/utils/fortran_to_aviary.py:60-64). -/
structure Vehicle where
  input : LV
  unused : LV
  guesses : Dict Txt PVal

/-- What the converter knows: which legacy code, the units of the Aviary metadata, the legacy names of each Aviary
variable (`None` when it has none), the units of the legacy defaults, the variables that are not converted.
Part of the model of aviary/utils/fortran_to_aviary.py:323. -/
structure Conv where
  gasp : Bool
  md : Dict Txt String
  alts : List (Txt × Option (List Txt))
  defaults : Dict Txt String
  deprecated : List Txt

/-- `str(list_of_names)`, names without quotes. Part of the model of aviary/utils/fortran_to_aviary.py:323. -/
def pyStrList (xs : List Txt) : Txt :=
  '[' :: joinWith xs ++ [']']
where
  joinWith : List Txt → Txt
    | [] => []
    | [x] => '\'' :: x ++ ['\'']
    | x :: rest => '\'' :: x ++ '\'' :: ',' :: ' ' :: joinWith rest

/-- A pattern of literal characters and `.` at the start of the text.
Part of the model of aviary/utils/fortran_to_aviary.py:323. -/
def matchAt : Txt → Txt → Bool
  | [], _ => true
  | _ :: _, [] => false
  | p :: ps, c :: cs => (p = '.' || p = c) && matchAt ps cs

/-- `re.search(pattern, text)`. Part of the model of aviary/utils/fortran_to_aviary.py:323. -/
def search (p : Txt) : Txt → Bool
  | [] => matchAt p []
  | c :: cs => matchAt p (c :: cs) || search p cs

/-- `current_namelist + '.' + var_name`. Part of the model of aviary/utils/fortran_to_aviary.py:300-388. -/
def fullName (ns name : Txt) : Txt := ns ++ '.' :: name

/-- aviary/utils/fortran_to_aviary.py:323: `re.search(full, str(unused_vars), re.IGNORECASE)`; parentheses form a group and match
nothing by themselves. -/
def skipped (cv : Conv) (full : Txt) : Bool :=
  search (lower (full.filter (fun c => c ≠ '(' && c ≠ ')'))) (lower (pyStrList cv.deprecated))

/-- `int` of the text between the parentheses, and the name before them (aviary/utils/fortran_to_aviary.py:451-456). -/
def splitIndex (rt : TxtRT) (full : Txt) : Except Err (Txt × Option Int) :=
  if '(' ∈ full then
    let inner := (splitChar ')' ((splitChar '(' full).getD 1 [])).headD []
    match rt.pyInt inner with
    | none => .error .valueError
    | some i => .ok ((splitChar '(' full).headD [], some i)
  else .ok (full, none)

/-- `f'({i})'`. Part of the model of aviary/utils/fortran_to_aviary.py:461-469. -/
def showIndex (i : Int) : Txt := '(' :: (toString i).toList ++ [')']

/-- `a.endswith(s)`. Part of the model of aviary/utils/fortran_to_aviary.py:461-469. -/
def endsWith (a s : Txt) : Bool := s.isSuffixOf a

/-- aviary/utils/fortran_to_aviary.py:461-469, the legacy names of one Aviary variable. -/
def matchAlts (name : Txt) (key : Txt) : List Txt → List Txt × Option Int → List Txt × Option Int
  | [], st => st
  | alt :: rest, (acc, ind) =>
    if endsWith (lower alt) (lower name) then matchAlts name key rest (acc ++ [key], ind)
    else match ind with
      | some i =>
        if endsWith (lower alt) (lower name ++ showIndex i) then matchAlts name key rest (acc ++ [key], none)
        else matchAlts name key rest (acc, ind)
      | none => matchAlts name key rest (acc, ind)

/-- aviary/utils/fortran_to_aviary.py:459-469, all Aviary variables. -/
def matchAll (name : Txt) : List (Txt × Option (List Txt)) → List Txt × Option Int → List Txt × Option Int
  | [], st => st
  | (_, none) :: rest, st => matchAll name rest st
  | (key, some as) :: rest, st => matchAll name rest (matchAlts name key as st)

/-- aviary/utils/fortran_to_aviary.py:449-477 `update_name`. -/
def updateName (rt : TxtRT) (alts : List (Txt × Option (List Txt))) (full : Txt) : Except Err (List Txt × Option Int) := do
  let (name, ind) ← splitIndex rt full
  match matchAll name alts ([], ind) with
  | ([], ind) => .ok ([name], ind)
  | (names, ind) => .ok (names, ind)

/-- `v == 1`, `v == 0`. Part of the model of aviary/utils/fortran_to_aviary.py:409-429. -/
def eqNum (v : PVal) (q : ℚ) : Bool :=
  match v with
  | .int i => (i : ℚ) = q
  | .float x => x = q
  | .bool b => (if b then (1 : ℚ) else 0) = q
  | _ => false

/-- `xs[i] = v` with Python's negative indices. Part of the model of aviary/utils/fortran_to_aviary.py:409-429. -/
def setAt (xs : List PVal) (i : Int) (v : PVal) : Except Err (List PVal) :=
  if 0 ≤ i then (if i.toNat < xs.length then .ok (xs.set i.toNat v) else .error .indexError)
  else if 0 ≤ (xs.length : Int) + i then .ok (xs.set ((xs.length : Int) + i).toNat v)
  else .error .indexError

/-- aviary/utils/fortran_to_aviary.py:411-416: the list that the indexed element is written into. -/
def indexBase (cur : Option (List PVal)) (i : Int) : List PVal :=
  match cur with
  | some xs => xs ++ List.replicate (i - ((xs.length : Int) - 1)).toNat (.int 0)
  | none => .none :: List.replicate i.toNat (.int 0)

/-- aviary/utils/fortran_to_aviary.py:399-407: the units that are stored. -/
def entryUnits (md : Dict Txt String) (name : Txt) (old : Option (List PVal × String)) (units : String) : String :=
  let u := match old with
    | some (_, u) => u
    | none => match md.get? name with
      | some mu => if units = "" then mu else units
      | none => units
  if u = "" then "unitless" else u

/-- aviary/utils/fortran_to_aviary.py:409-429: the value that is stored; the `ValueError` of line 428 is built but not raised. -/
def entryValue (old : Option (List PVal)) (vals : List PVal) (ind : Option Int) : Except Err (List PVal) :=
  match ind with
  | some i => match vals with
    | [] => .error .indexError
    | v :: _ => setAt (indexBase old i) i v
  | none => match old with
    | none => .ok vals
    | some [] => .error .indexError
    | some (.bool _ :: _) => match vals with
      | [] => .error .indexError
      | v :: _ => if eqNum v 1 then .ok [.str "True"] else if eqNum v 0 then .ok [.str "False"] else .ok vals
    | some _ => .ok vals

/-- aviary/utils/fortran_to_aviary.py:391-430 `set_value`. -/
def setValue (md : Dict Txt String) (name : Txt) (vals : List PVal) (units : String) (d : LV) (ind : Option Int) :
    Except Err LV := do
  let v ← entryValue ((d.get? name).map Prod.fst) vals ind
  .ok (d.set name (v, entryUnits md name (d.get? name) units))

/-- `1 / var` for each value (aviary/utils/fortran_to_aviary.py:348). -/
def reciprocals : List PVal → Except Err Unit
  | [] => .ok ()
  | v :: vs =>
    if eqNum v 0 then .error .zeroDivision
    else match v with
      | .int _ => reciprocals vs
      | .float _ => reciprocals vs
      | .bool _ => reciprocals vs
      | _ => .error .typeError

/-- `float(var_values[0])` (aviary/utils/fortran_to_aviary.py:361); text raises `ValueError`. -/
def firstFloat (rt : TxtRT) : List PVal → Except Err PVal
  | [] => .error .indexError
  | .int i :: _ => .ok (.float i)
  | .float q :: _ => .ok (.float q)
  | .bool b :: _ => .ok (.float (if b then 1 else 0))
  | .str s :: _ => match rt.pyFloat s.toList with
    | some q => .ok (.float q)
    | none => .error .valueError
  | _ :: _ => .error .typeError

/-- The keys of `initialization_guesses` (aviary/utils/fortran_to_aviary.py:1454-1465). -/
def guessNames : List Txt :=
  ["actual_takeoff_mass", "rotation_mass", "fuel_burn_per_passenger_mile", "cruise_mass_final", "flight_duration",
   "time_to_climb", "climb_range", "reserves"].map String.toList

/-- aviary/utils/fortran_to_aviary.py:357-386: one Aviary name; `units` is the variable `data_units`, which the metadata branch
overwrites (lines 365-368) for the names that follow. -/
def storeName (rt : TxtRT) (cv : Conv) (full : Txt) (skip : Bool) (vals : List PVal) (ind : Option Int)
    (st : Vehicle × String) (name : Txt) : Except Err (Vehicle × String) :=
  if skip = false ∧ name ∈ guessNames ∧ cv.gasp = true then do
    let x ← firstFloat rt vals
    .ok ({ st.1 with guesses := st.1.guesses.set name x }, st.2)
  else if skip = false ∧ cv.md.has name then do
    let u := (cv.defaults.get? full).getD ""
    let d ← setValue cv.md name vals u st.1.input ind
    .ok ({ st.1 with input := d }, u)
  else do
    let d ← setValue cv.md name vals st.2 st.1.unused ind
    .ok ({ st.1 with unused := d }, st.2)

/-- aviary/utils/fortran_to_aviary.py:326-335: the values and units of the data text. -/
def readData (rt : TxtRT) (data : Txt) : Bool × List PVal × String :=
  let items := (splitChar ',' data).filter (fun t => t ≠ [])
  match items.getLast? with
  | none => (true, [], "")
  | some u =>
    if rt.validUnits u then (false, items.dropLast.map (convertEntry rt), String.ofList u)
    else (false, items.map (convertEntry rt), "")

/-- aviary/utils/fortran_to_aviary.py:300-388 `process_and_store_data`.  The call in lines 349-355 passes `units` twice, which
Python refuses with `TypeError`. -/
def store (rt : TxtRT) (cv : Conv) (ns name data : Txt) (st : Vehicle) : Except Err Vehicle :=
  let full := fullName ns name
  if skipped cv full then .ok st
  else do
    let (skip, vals, units) := readData rt data
    let (names, ind) ← updateName rt cv.alts full
    let ind := ind.map (fun i => if ns = [] then i else i - 1)
    if full = "INPROP.GR".toList then do
      reciprocals vals
      .error .typeError
    else do
      let r ← names.foldlM (storeName rt cv full skip vals ind) (st, units)
      .ok r.1

end Verif.Fortran
