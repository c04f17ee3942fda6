import Verif.Model.Dict
import Mathlib.Data.Nat.Notation
import Mathlib.Data.Int.Notation

/-!
# Tools of the documentation, and the table of variables in the dashboard

`aviary/utils/doctape.py`, which the documentation uses to check and print names, and
`create_aviary_variables_table_data_nested` of `aviary/visualization/dashboard.py`.  Strings are lists of characters.
-/

namespace Verif.DocTape

/-- A string. Part of the model of aviary/utils/doctape.py:349-372. -/
abbrev Str := List Char

/-! ## Nested dictionaries -/

mutual
/-- A value of a dictionary of dictionaries.  Simplified: an object is the dictionary of its attributes
(`aviary/utils/doctape.py:325-372`). -/
inductive Tree
  | leaf (v : ℕ)
  | node (d : Items)
/-- The items of such a dictionary. Part of the model of aviary/utils/doctape.py:354. -/
inductive Items
  | nil
  | cons (k : Str) (t : Tree) (rest : Items)
end

/-- The argument `track_layers`: false, true, or the name of a layer (`aviary/utils/doctape.py:325`). -/
inductive Track
  | off | on | layer (s : Str)
  deriving DecidableEq, Repr

/-- Truth of the argument: the empty name is false. Part of the model of aviary/utils/doctape.py:357-361. -/
def Track.truthy : Track → Bool
  | .off => false
  | .on => true
  | .layer s => s ≠ []

/-- The present layer (`aviary/utils/doctape.py:357-360`). -/
def Track.current : Track → Str
  | .layer s => s
  | _ => []

/-- Names with two underscores on both sides are passed over (`aviary/utils/doctape.py:355-356`). -/
def dunder (k : Str) : Bool := ['_', '_'].isPrefixOf k && ['_', '_'].isSuffixOf k

/-- The key with its layer (`aviary/utils/doctape.py:361-362`). -/
def Track.key (t : Track) (k : Str) : Str := if t.truthy && t.current ≠ [] then t.current ++ '.' :: k else k

/-- The argument of the recursive call (`aviary/utils/doctape.py:366-370`). -/
def Track.next (t : Track) (key : Str) : Track := if t.truthy then .layer key else .off

/-- `if key not in all_keys: all_keys.append(key)` (`aviary/utils/doctape.py:363-364`). -/
def addKey (acc : List Str) (k : Str) : List Str := if k ∈ acc then acc else acc ++ [k]

mutual
/-- The keys of a value that is itself a dictionary (`aviary/utils/doctape.py:365-370`). -/
def treeKeys (track : Track) (acc : List Str) : Tree → List Str
  | .leaf _ => acc
  | .node d => allKeys track acc d
/-- `get_all_keys` (`aviary/utils/doctape.py:325-372`). -/
def allKeys (track : Track) (acc : List Str) : Items → List Str
  | .nil => acc
  | .cons k t rest =>
    if dunder k then allKeys track acc rest
    else allKeys track (treeKeys (track.next (track.key k)) (addKey acc (track.key k)) t) rest
end

/-- `split('.')`. Part of the model of aviary/utils/doctape.py:390. -/
def split : Str → List Str
  | [] => [[]]
  | c :: l => if c = '.' then [] :: split l else
    match split l with
    | [] => [[c]]
    | h :: t => (c :: h) :: t

/-- `d[key]`. Part of the model of aviary/utils/doctape.py:393. -/
def Items.find : Items → Str → Option Tree
  | .nil, _ => none
  | .cons k t rest, x => if k = x then some t else rest.find x

/-- The loop of `get_value` (`aviary/utils/doctape.py:390-394`). -/
def walk : Tree → List Str → Except Err Tree
  | t, [] => .ok t
  | .leaf _, _ :: _ => .error .attributeError
  | .node d, k :: ks =>
    match d.find k with
    | none => .error .keyError
    | some t => walk t ks

/-- `get_value` (`aviary/utils/doctape.py:375-394`). -/
def getValue (d : Items) (key : Str) : Except Err Tree := walk (.node d) (split key)

/-! ## Checks -/

/-- `', '.join`. Part of the model of aviary/utils/doctape.py:73. -/
def commas : List String → String
  | [] => ""
  | [a] => a
  | a :: l => a ++ ", " ++ commas l

/-- `gramatical_list` (`aviary/utils/doctape.py:50-73`). -/
def gramatical (l : List String) (cc : String) : Except Err String :=
  match l with
  | [a] => .ok a
  | [a, b] => .ok (a ++ " " ++ cc ++ " " ++ b)
  | l => match l.getLast? with
    | none => .error .indexError
    | some x => .ok (commas (l.dropLast ++ [cc ++ " " ++ x]))

/-- What is compared: values with an equality, arrays, and other objects by identity (`aviary/utils/doctape.py:161`). -/
inductive Thing
  | value (v : ℤ)
  | array (l : List ℤ)
  | object (id : ℕ)
  deriving DecidableEq, Repr

/-- `check_value`; comparing arrays gives an array, whose truth is undefined unless it has one element; an empty one is false
(`aviary/utils/doctape.py:141-168`). -/
def checkValue (a b : Thing) : Except Err Unit :=
  match a, b with
  | .array x, .array y =>
    if x.length = y.length ∧ x.length ≠ 1 then (if x = [] then .ok () else .error .valueError)
    else if x = y then .ok () else .error .valueError
  | a, b => if a = b then .ok () else .error .valueError

/-- `check_contains` of expected values, an iterable (a single value is wrapped by the caller of the model)
(`aviary/utils/doctape.py:171-202`). -/
def checkContains {α : Type} [DecidableEq α] (expected actual : List α) : Except Err Unit :=
  if expected.all (· ∈ actual) then .ok () else .error .runtimeError

/-- Expected arguments: names, names with defaults, or one name (`aviary/utils/doctape.py:205-214`). -/
inductive Expected
  | names (l : List String)
  | defaults (d : Dict String ℤ)
  | one (s : String)

/-- Equality of dictionaries. Part of the model of aviary/utils/doctape.py:247. -/
def sameDict (a b : Dict String ℤ) : Bool :=
  a.length = b.length && a.all fun x => b.get? x.1 = some x.2

/-- `check_args`: the parameters of the function with their defaults, what is expected
(`aviary/utils/doctape.py:205-259`). -/
def checkArgs (params : Dict String ℤ) (expected : Expected) (ignore : List String) (exact : Bool) : Except Err Unit :=
  let available : Dict String ℤ := params.filter fun x => x.1 ∉ ignore
  match expected with
  | .one s => if s ∈ available.keys then .ok () else .error .valueError
  | .names l =>
    if exact then
      if available.keys.mergeSort (fun a b => decide (a ≤ b)) = l.mergeSort (fun a b => decide (a ≤ b)) then .ok () else .error .valueError
    else if l.all (· ∈ available.keys) then .ok () else .error .valueError
  | .defaults d =>
    if exact then (if sameDict available d then .ok () else .error .valueError)
    else if d.all fun x => available.get? x.1 = d.get? x.1 then .ok () else .error .valueError

/-- `get_attribute_name` (`aviary/utils/doctape.py:293-322`). -/
def attributeName (attrs : Dict String ℤ) (v : ℤ) : Except Err String :=
  match attrs with
  | [] => .error .attributeError
  | (n, x) :: l => if x = v then .ok n else attributeName l v

/-! ## Gluing -/

/-- Names are glued that have not been (`aviary/utils/doctape.py:568-575`, `:618-622`). -/
def glue (done : List String) : List String → List String
  | [] => done
  | n :: l => glue (if n ∈ done then done else done ++ [n]) l

/-- The forms of the methods of a class (`aviary/utils/doctape.py:570-575`). -/
def methodForms (pre : Option String) (methods : List String) : List String :=
  methods.flatMap fun m => match pre with
    | none => [m, m ++ "()"]
    | some p => [m, m ++ "()", p ++ "." ++ m, p ++ "." ++ m ++ "()"]

/-- `glue_class_methods` (`aviary/utils/doctape.py:554-577`). -/
def glueMethods (done : List String) (pre : Option String) (methods : List String) : List String :=
  glue done (methodForms pre methods)

/-- `glue_function_arguments`; the test for a missing default compares a string with a class and never fails
(`aviary/utils/doctape.py:580-604`). -/
def glueArguments (done : List String) (glueDefault : Bool) : List String → List String
  | [] => done
  | n :: l =>
    if n ∈ done ∨ n = "self" then glueArguments done glueDefault l
    else
      let done := done ++ [n]
      glueArguments (if glueDefault ∧ n ++ "_default" ∉ done then done ++ [n ++ "_default"] else done) glueDefault l

/-- `glue_class_options`; the argument `add_attributes` is not used (`aviary/utils/doctape.py:607-636`). -/
def glueOptions (done : List String) (_addAttributes : Bool) (options attributes : List String) : List String :=
  glue (glue done options) attributes

/-! ## The table of variables -/

/-- `s.split(':')[0]`. Part of the model of aviary/visualization/dashboard.py:378. -/
def groupName (s : Str) : Str := s.takeWhile (· ≠ ':')

/-- A row of the table: a variable, or a group with children (`aviary/visualization/dashboard.py:386-425`). -/
inductive Row
  | variable (shown var : Str)
  | group (shown : Str) (children : List Str)
  deriving DecidableEq, Repr

/-- The variables are put in groups (`aviary/visualization/dashboard.py:376-381`). -/
def grouped (g : Dict Str (List Str)) : List Str → Dict Str (List Str)
  | [] => g
  | s :: l =>
    let old := (g.get? (groupName s)).getD []
    grouped (g.set (groupName s) (old ++ [s])) l

/-- The row of a group (`aviary/visualization/dashboard.py:387-425`). -/
def row (name : Str) (vars : List Str) : Row :=
  match vars with
  | [v] => .variable name v
  | l => .group name l

/-- `create_aviary_variables_table_data_nested`: the rows for sorted variables; groups are sorted by name by `sort`
(`aviary/visualization/dashboard.py:331-434`). -/
def table (sort : List Str → List Str) (names : List Str) : List Row :=
  let g := grouped [] (sort names)
  (sort g.keys).map fun n => row n ((g.get? n).getD [])

end Verif.DocTape
