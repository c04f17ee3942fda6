import Verif.Model.OdeOptions

/-!
# The group that solves for the angle of attack and the thrust

`UnsteadyControlIterGroup` hands options to its subsystems in its own way: the aerodynamics method is written into the user's
dictionary of subsystems, not into the options given to a subsystem.
-/

namespace Verif.ControlIter
open Verif.Builders Verif.OdeOpts

/-- A value of `subsystem_options`: the options of a subsystem or a string.
aviary/mission/solved_two_dof/ode/unsteady_control_iter_group.py:38-43 and 62-65. -/
inductive Entry | opts (o : Opts) | str (s : String)
  deriving DecidableEq, Repr

/-- `subsystem_options`, aviary/mission/solved_two_dof/ode/unsteady_control_iter_group.py:38-43. -/
abbrev EDict := List (String × Entry)

/-- `subsystem_options[k] = v`, aviary/mission/solved_two_dof/ode/unsteady_control_iter_group.py:62-65. -/
def putE : EDict → String → Entry → EDict
  | [], k, v => [(k, v)]
  | (a, b) :: r, k, v => if a = k then (a, v) :: r else (a, b) :: putE r k v

/-- The method written, aviary/mission/solved_two_dof/ode/unsteady_control_iter_group.py:62-65. -/
def written (clean : Bool) : String := if clean then "low_speed" else "cruise"

/-- `kwargs.update(e)`; a string other than the empty one is no sequence of pairs and raises ValueError.
aviary/mission/solved_two_dof/ode/unsteady_control_iter_group.py:68-69. -/
def updateE (kw : Opts) : Entry → Except Err Opts
  | .opts o => .ok (update kw o)
  | .str s => if s = "" then .ok kw else .error .value

/-- `kwargs` after the entry of `n`, if there is one, aviary/mission/solved_two_dof/ode/unsteady_control_iter_group.py:68-69. -/
def pass (d : EDict) (kw : Opts) (n : String) : Except Err Opts :=
  match d.lookup n with
  | some e => updateE kw e
  | none => .ok kw

/-- The loop over the subsystems: the options each is built with.
aviary/mission/solved_two_dof/ode/unsteady_control_iter_group.py:67-76. -/
def loop (d : EDict) : Opts → List Sub → Except Err (List Opts)
  | _, [] => .ok []
  | kw, b :: bs =>
    match pass d kw b.name with
    | .error e => .error e
    | .ok kw' =>
      match loop d kw' bs with
      | .error e => .error e
      | .ok r => .ok (kw' :: r)

/-- The user's dictionary after `setup`, aviary/mission/solved_two_dof/ode/unsteady_control_iter_group.py:62-65. -/
def after (clean : Bool) (d : EDict) : EDict := putE d "method" (.str (written clean))

/-- `setup` up to the loop: the options of each subsystem.
aviary/mission/solved_two_dof/ode/unsteady_control_iter_group.py:52-94. -/
def given (clean : Bool) (d : EDict) (bs : List Sub) : Except Err (List Opts) := loop (after clean d) noOpts bs

end Verif.ControlIter
