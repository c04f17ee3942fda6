import Verif.Model.Dict
import Mathlib.Data.List.Basic

/-!
# File lookup

Models `get_path` and `get_model`, aviary/utils/functions.py:176-310. The file system is a predicate `ex`
(`Path.exists`) and the list `contents` returned by `glob(models/**, recursive=True)`. Printing is left out.
-/

namespace Verif

/-- A `pathlib.Path`: absolute or not, and its components. Part of the model of aviary/utils/functions.py:254-310. -/
structure FPath where
  abs : Bool
  parts : List String
  deriving DecidableEq, Repr

/-- `base / p` (an absolute right side replaces the left). Part of the model of aviary/utils/functions.py:254-310. -/
def FPath.join (base p : FPath) : FPath := if p.abs then p else ⟨base.abs, base.parts ++ p.parts⟩

/-- `Path.name`. Part of the model of aviary/utils/functions.py:284-291. -/
def FPath.name (p : FPath) : String := p.parts.getLastD ""

/-- Characters before and after the last dot: `(stem, suffix without dot)`, if there is a dot.
Part of the model of aviary/utils/functions.py:284-291. -/
def splitDot : List Char → Option (List Char × List Char)
  | [] => none
  | c :: cs => match splitDot cs with
    | some (a, b) => some (c :: a, b)
    | none => if c = '.' then some ([], cs) else none

/-- `Path.stem` and `Path.suffix` of a file name: a dot at the start or the end does not count.
Part of the model of aviary/utils/functions.py:284-291. -/
def stemSuffix (n : String) : String × String :=
  match splitDot n.toList with
  | some (a, b) => if a = [] ∨ b = [] then (n, "") else (String.ofList a, String.ofList ('.' :: b))
  | none => (n, "")

/-- `Path.stem`. Part of the model of aviary/utils/functions.py:284-291. -/
def FPath.stem (p : FPath) : String := (stemSuffix p.name).1
/-- `Path.suffix`. Part of the model of aviary/utils/functions.py:254-310. -/
def FPath.suffix (p : FPath) : String := (stemSuffix p.name).2

/-- Result of a lookup: the path, or `FileNotFoundError`. Part of the model of aviary/utils/functions.py:254-310. -/
inductive Found
  | path (p : FPath)
  | notFound
  deriving DecidableEq, Repr

/-- The loop over `contents`, aviary/utils/functions.py:284-291: `.inl` is the early return, `.inr` the close matches. -/
def scan (target : FPath) : List FPath → List FPath → FPath ⊕ List FPath
  | [], close => .inr close
  | c :: cs, close =>
    if target = c ∨ target.name = c.name then .inl c
    else if target.stem = c.stem then scan target cs (close ++ [c])
    else scan target cs close

/-- Lines 294-303: the first `.csv`, else the first close match. `lower` is `str.lower`.
Part of the model of aviary/utils/functions.py:254-310. -/
def bestMatch (lower : String → String) : List FPath → Option FPath
  | [] => none
  | c :: cs => some (((c :: cs).find? (fun p => decide (lower p.suffix = ".csv"))).getD c)

/-- `get_model`, aviary/utils/functions.py:254-310; `pkg` is the folder of the package. -/
def getModel (lower : String → String) (ex : FPath → Bool) (pkg : FPath) (contents : List FPath) (file : FPath) : Found :=
  let target := pkg.join (FPath.join ⟨false, ["models"]⟩ file)
  if ex target then .path target
  else match scan target contents [] with
    | .inl c => .path c
    | .inr close => match bestMatch lower close with
      | some c => .path c
      | none => .notFound

/-- `get_path`, aviary/utils/functions.py:176-251. -/
def getPath (lower : String → String) (ex : FPath → Bool) (cwd pkg : FPath) (contents : List FPath) (p : FPath) : Found :=
  let p1 := if ex p then p else cwd.join p
  let p2 := if ex p1 then p1 else pkg.join p
  let p3 := if ex p2 then p2 else
    match getModel lower ex pkg contents p with
    | .path q => q
    | .notFound => p2
  if ex p3 then .path p3 else .notFound

end Verif
