import Verif.Model.PyVal
import Verif.Model.Dict

/-! # Model of `separate_reserve_phases` (aviary/mission/utils.py:5-59) -/

namespace Verif

/-- What the function can observe of one phase: no `user_options` at all, no `reserve` key, or whether the value of
`reserve` is the object `False` (`is False`, aviary/mission/utils.py:35). -/
inductive PhaseTag
  | noOptions
  | noReserve
  | reserveIsFalse
  | reserveOther
  deriving DecidableEq, Repr

/-- `SepState`: part of the model of aviary/mission/utils.py:32-48. -/
structure SepState where
  main : List String
  reserve : List String
  started : Bool
  raise : Bool
  deriving DecidableEq, Repr

/-- One turn of the loop, aviary/mission/utils.py:32-48. -/
def sepStep (s : SepState) (p : String × PhaseTag) : SepState :=
  match p.2 with
  | .noOptions => s
  | .reserveIsFalse => { s with main := s.main ++ [p.1], raise := s.raise || s.started }
  | .reserveOther => { s with reserve := s.reserve ++ [p.1], started := true }
  | .noReserve => { s with main := s.main ++ [p.1], raise := s.raise || s.started }

/-- aviary/mission/utils.py:5-59 -/
def separatePhases (phases : List (String × PhaseTag)) : Except Err (List String × List String) :=
  let s := phases.foldl sepStep ⟨[], [], false, false⟩
  if s.raise then .error .valueError else .ok (s.main, s.reserve)

end Verif
