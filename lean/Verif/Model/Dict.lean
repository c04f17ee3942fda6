/-!
# Python `dict` with insertion order

Python dictionaries (language reference, "Mapping types — dict") keep insertion order; assigning to an
existing key keeps its position.  This is the container behind `NamedValues._mapping`
(/repo/aviary/utils/named_values.py:52), the metadata dictionaries
(/repo/aviary/utils/develop_metadata.py:110-120) and `phase_info`.
Simplification: keys are compared with `==` of a decidable type; hashing is not modelled.
-/

namespace Verif

/-- The exceptions raised by modelled code. Only the class is modelled, not the message.
Part of the model of /repo/aviary/utils/named_values.py:52. -/
inductive Err
  | typeError | valueError | keyError | indexError | attributeError | nameError
  | fileNotFound | userWarning | zeroDivision | unboundLocal | runtimeError
  deriving DecidableEq, Repr

/-- A Python dict as its list of items in iteration order.
Part of the model of /repo/aviary/utils/named_values.py:52. -/
abbrev Dict (κ : Type) (α : Type) := List (κ × α)

namespace Dict
variable {κ α : Type} [DecidableEq κ]

/-- `d.get(k)`. Part of the model of /repo/aviary/utils/named_values.py:52. -/
def get? : Dict κ α → κ → Option α
  | [], _ => none
  | (k', v) :: d, k => if k' = k then some v else get? d k

/-- `k in d`. Part of the model of /repo/aviary/utils/named_values.py:52. -/
def has (d : Dict κ α) (k : κ) : Bool := (d.get? k).isSome

/-- `d[k] = v` : replace in place, otherwise append. Part of the model of /repo/aviary/utils/named_values.py:52. -/
def set : Dict κ α → κ → α → Dict κ α
  | [], k, v => [(k, v)]
  | (k', v') :: d, k, v => if k' = k then (k', v) :: d else (k', v') :: set d k v

/-- `del d[k]` when the key is present; the identity otherwise.
Part of the model of /repo/aviary/utils/named_values.py:52. -/
def erase : Dict κ α → κ → Dict κ α
  | [], _ => []
  | (k', v') :: d, k => if k' = k then d else (k', v') :: erase d k

/-- `list(d.keys())`. Part of the model of /repo/aviary/utils/named_values.py:52. -/
def keys (d : Dict κ α) : List κ := d.map Prod.fst

end Dict
end Verif
