import Verif.Model.MissionEditor

/-!
# The text of a phase info file

`_format_phase_info_value` of `aviary/interface/graphical_input.py` prints nested dictionaries, lists and tuples; the editor and
`aviary run_mission` read the file back as a python module.  The text is a list of tokens; strings and numbers are single
tokens that carry their text.  Reading is modelled by the part of the python grammar that the printer uses.
-/

namespace Verif.InfoText

/-- Values without parts: what prints as a literal, and numpy floats. Part of the model of aviary/interface/graphical_input.py:47. -/
inductive Atom
  | plain (text : String)
  | npFloat (text : String)
  deriving DecidableEq, Repr

mutual
/-- Values of a phase info (`aviary/interface/graphical_input.py:24-47`). -/
inductive Val
  | atom (a : Atom)
  | dict (es : Entries)
  | list (vs : Vals)
  | tuple (vs : Vals)
/-- The items of a list or tuple. Part of the model of aviary/interface/graphical_input.py:37-45. -/
inductive Vals
  | nil
  | cons (v : Val) (vs : Vals)
/-- The entries of a dictionary, with the text of the key. Part of the model of aviary/interface/graphical_input.py:28-35. -/
inductive Entries
  | nil
  | cons (k : String) (v : Val) (es : Entries)
end

/-- Tokens: punctuation, white space, literals, and `np.float64(…)` as one. Part of the model of
aviary/interface/graphical_input.py:24-47. -/
inductive Tok
  | p (c : Char)
  | ws (s : String)
  | lit (s : String)
  | np (s : String)
  deriving DecidableEq, Repr

/-- Characters of a token. Part of the model of aviary/interface/graphical_input.py:43. -/
def Tok.width : Tok → ℕ
  | .p _ => 1
  | .ws s => s.length
  | .lit s => s.length
  | .np s => s.length + 12

/-- `len` of a text. Part of the model of aviary/interface/graphical_input.py:43. -/
def width (l : List Tok) : ℕ := (l.map Tok.width).sum

/-- `'    ' * n` (`aviary/interface/graphical_input.py:25-26`). -/
def indent (n : ℕ) : Tok := .ws (String.ofList (List.replicate (4 * n) ' '))

/-- `', '.join(items)` (`aviary/interface/graphical_input.py:42`). -/
def joined : List (List Tok) → List Tok
  | [] => []
  | [a] => a
  | a :: l => a ++ .p ',' :: .ws " " :: joined l

/-- One item on each line (`aviary/interface/graphical_input.py:45`). -/
def lined (inner : Tok) : List (List Tok) → List Tok
  | [] => []
  | a :: l => inner :: a ++ .p ',' :: .ws "\n" :: lined inner l

/-- A list or tuple from its printed items (`aviary/interface/graphical_input.py:37-45`). -/
def sequence (opening closing : Char) (n : ℕ) (items : List (List Tok)) : List Tok :=
  if items = [] then [.p opening, .p closing]
  else if width (.p opening :: joined items ++ [.p closing]) ≤ 60 then .p opening :: joined items ++ [.p closing]
  else .p opening :: .ws "\n" :: lined (indent (n + 1)) items ++ [indent n, .p closing]

/-- `repr` of a value without parts; since numpy 2 floats of numpy print with the name of their type
(`aviary/interface/graphical_input.py:47`). -/
def reprAtom (numpy2 : Bool) : Atom → Tok
  | .plain s => .lit s
  | .npFloat s => if numpy2 then .np s else .lit s

mutual
/-- `_format_phase_info_value` (`aviary/interface/graphical_input.py:24-47`). -/
def fmt (numpy2 : Bool) (n : ℕ) : Val → List Tok
  | .atom a => [reprAtom numpy2 a]
  | .dict .nil => [.p '{', .p '}']
  | .dict (.cons k v es) => .p '{' :: .ws "\n" :: fmtEntries numpy2 n (.cons k v es) ++ [indent n, .p '}']
  | .list vs => sequence '[' ']' n (fmtVals numpy2 (n + 1) vs)
  | .tuple vs => sequence '(' ')' n (fmtVals numpy2 (n + 1) vs)
/-- The printed items (`aviary/interface/graphical_input.py:41`). -/
def fmtVals (numpy2 : Bool) (n : ℕ) : Vals → List (List Tok)
  | .nil => []
  | .cons v vs => fmt numpy2 n v :: fmtVals numpy2 n vs
/-- The printed entries (`aviary/interface/graphical_input.py:32-33`). -/
def fmtEntries (numpy2 : Bool) (n : ℕ) : Entries → List Tok
  | .nil => []
  | .cons k v es => indent (n + 1) :: .lit k :: .p ':' :: .ws " " :: fmt numpy2 (n + 1) v ++ .p ',' :: .ws "\n" :: fmtEntries numpy2 n es
end

/-! ## Reading -/

/-- White space inside brackets means nothing. Part of the model of aviary/interface/graphical_input.py:1413-1416. -/
def strip (l : List Tok) : List Tok := l.filter fun | .ws _ => false | _ => true

/-- What parentheses mean: one item without a comma is the item. Part of the model of aviary/interface/graphical_input.py:1413-1416. -/
def paren : Vals → Bool → Val
  | .cons v .nil, false => v
  | vs, _ => .tuple vs

mutual
/-- An expression is parsed, of the part of the grammar that is printed; the first argument bounds the depth of the recursion.
Part of the model of aviary/interface/graphical_input.py:1413-1416. -/
def pVal : ℕ → List Tok → Option (Val × List Tok)
  | 0, _ => none
  | f + 1, toks =>
    match toks with
    | .lit s :: r => some (.atom (.plain s), r)
    | .np s :: r => some (.atom (.npFloat s), r)
    | .p c :: r =>
      if c = '{' then (pEntries f r).map fun x => (.dict x.1, x.2)
      else if c = '[' then (pVals f ']' r).map fun x => (.list x.1, x.2.2)
      else if c = '(' then (pVals f ')' r).map fun x => (paren x.1 x.2.1, x.2.2)
      else none
    | _ => none
/-- Items up to a closing bracket, and whether there was a comma. Part of the model of aviary/interface/graphical_input.py:1413-1416. -/
def pVals : ℕ → Char → List Tok → Option (Vals × Bool × List Tok)
  | 0, _, _ => none
  | f + 1, c, toks =>
    if toks.head? = some (.p c) then some (.nil, false, toks.tail)
    else
      match pVal f toks with
      | some (v, .p d :: r) =>
        if d = ',' then (pVals f c r).map fun x => (.cons v x.1, true, x.2.2)
        else if d = c then some (.cons v .nil, false, r)
        else none
      | _ => none
/-- Entries up to the closing brace. Part of the model of aviary/interface/graphical_input.py:1413-1416. -/
def pEntries : ℕ → List Tok → Option (Entries × List Tok)
  | 0, _ => none
  | f + 1, toks =>
    match toks with
    | .p c :: r => if c = '}' then some (.nil, r) else none
    | .lit k :: .p c :: r =>
      if c = ':' then
        match pVal f r with
        | some (v, .p d :: r) =>
          if d = ',' then (pEntries f r).map fun x => (.cons k v x.1, x.2)
          else if d = '}' then some (.cons k v .nil, r)
          else none
        | _ => none
      else none
    | _ => none
end

mutual
/-- Whether an expression uses the name `np`. Part of the model of aviary/interface/graphical_input.py:1413-1416. -/
def usesNp : Val → Bool
  | .atom (.plain _) => false
  | .atom (.npFloat _) => true
  | .dict es => entriesUseNp es
  | .list vs => valsUseNp vs
  | .tuple vs => valsUseNp vs
/-- Whether items use it. Part of the model of aviary/interface/graphical_input.py:1413-1416. -/
def valsUseNp : Vals → Bool
  | .nil => false
  | .cons v vs => usesNp v || valsUseNp vs
/-- Whether entries use it. Part of the model of aviary/interface/graphical_input.py:1413-1416. -/
def entriesUseNp : Entries → Bool
  | .nil => false
  | .cons _ v es => usesNp v || entriesUseNp es
end

/-- `exec_module` of a file `phase_info = …` that imports nothing.  Simplified: a syntax error is a `ValueError`
(`aviary/interface/graphical_input.py:1413-1418`). -/
def exec (text : List Tok) : Except Err Val :=
  match pVal (2 * text.length + 1) (strip text) with
  | some (v, []) => if usesNp v then .error .nameError else .ok v
  | _ => .error .valueError

/-! ## The file of a mission -/

open MissionEditor (Kind PhaseInfo Info)

/-- A string literal. Part of the model of aviary/interface/graphical_input.py:1637-1703. -/
def str (s : String) : Val := .atom (.plain ("'" ++ s ++ "'"))

/-- A bool literal. Part of the model of aviary/interface/graphical_input.py:1637-1703. -/
def bool (b : Bool) : Val := .atom (.plain (if b then "True" else "False"))

/-- A value with its unit. Part of the model of aviary/interface/graphical_input.py:1677-1700. -/
def withUnit (v : Val) (u : String) : Val := .tuple (.cons v (.cons (str u) .nil))

/-- Bounds. Part of the model of aviary/interface/graphical_input.py:1679-1698. -/
def pair (a b : Val) : Val := .tuple (.cons a (.cons b .nil))

/-- A list of entries. Part of the model of aviary/interface/graphical_input.py:1671-1703. -/
def entries : List (String × Val) → Entries
  | [] => .nil
  | (k, v) :: l => .cons ("'" ++ k ++ "'") v (entries l)

/-- Names of kinds (`aviary/interface/graphical_input.py:1655-1669`). -/
def Kind.name : Kind → String
  | .climb => "climb"
  | .cruise => "cruise"
  | .descent => "descent"

/-- The dictionary of a phase; `num` gives the text of a number, all are elements of numpy arrays but the first start, which is
zero twice.  Simplified: bounds cut off at 0.0 or 0.1 are plain floats (`aviary/interface/graphical_input.py:1671-1703`, `:1716-1720`). -/
def phaseVal (num : ℚ → String) (first : Bool) (p : PhaseInfo) : Val :=
  let x (q : ℚ) : Val := .atom (.npFloat (num q))
  let nat (n : ℕ) : Val := .atom (.plain (toString n))
  .dict (entries [
    ("subsystem_options", .dict (entries [("aerodynamics", .dict (entries [("method", str "computed")]))])),
    ("user_options", .dict (entries [
      ("num_segments", nat p.numSegments), ("order", nat p.order), ("mach_optimize", bool p.machOptimize),
      ("mach_polynomial_order", nat p.polyOrder), ("mach_initial", withUnit (x p.machInitial) p.machUnit),
      ("mach_final", withUnit (x p.machFinal) p.machUnit),
      ("mach_bounds", withUnit (pair (x p.machBounds.1) (x p.machBounds.2)) p.machUnit), ("altitude_optimize", bool p.altOptimize),
      ("altitude_polynomial_order", nat p.polyOrder), ("altitude_initial", withUnit (x p.altInitial) p.altUnit),
      ("altitude_final", withUnit (x p.altFinal) p.altUnit),
      ("altitude_bounds", withUnit (pair (x p.altBounds.1) (x p.altBounds.2)) p.altUnit),
      ("throttle_enforcement", str (if p.pathThrottle then "path_constraint" else "boundary_constraint")),
      ("time_initial_bounds", withUnit (if first then pair (.atom (.plain "0.0")) (.atom (.plain "0.0"))
        else pair (x p.initialBounds.1) (x p.initialBounds.2)) p.timeUnit),
      ("time_duration_bounds", withUnit (pair (x p.durationBounds.1) (x p.durationBounds.2)) p.timeUnit),
      ("distance_solve_segments", bool p.solve)])),
    ("initial_guesses", .dict (entries [
      ("time", withUnit (.list (.cons (x p.guess.1) (.cons (x p.guess.2) .nil))) p.timeUnit)]))])

/-- The phases. Part of the model of aviary/interface/graphical_input.py:1646-1703. -/
def phaseEntries (num : ℚ → String) (first : Bool) : List ((Kind × ℕ) × PhaseInfo) → List (String × Val)
  | [] => []
  | ((k, i), p) :: l => (Kind.name k ++ "_" ++ toString i, phaseVal num first p) :: phaseEntries num false l

/-- The dictionary that is written (`aviary/interface/graphical_input.py:1637-1724`). -/
def infoVal (num : ℚ → String) (r : Info) : Val :=
  .dict (entries ((("pre_mission", .dict (entries [("include_takeoff", bool r.takeoff), ("optimize_mass", bool true)])) ::
    phaseEntries num true r.phases) ++
    [("post_mission", .dict (entries [("include_landing", bool r.landing), ("constrain_range", bool r.constrainRange),
      ("target_range", withUnit (.atom (.npFloat (num r.targetRange.1))) r.targetRange.2)]))]))

end Verif.InfoText
