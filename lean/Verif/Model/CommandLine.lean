import Verif.Model.ProblemSteps

/-!
# The command line

aviary/interface/cmd_entry_points.py, aviary/interface/run_aviary.py, aviary/visualization/dashboard_cmd.py and
aviary/interface/installation_test.py: the choice of a command, the options of a run, the steps a run makes, saving and opening of a
dashboard, and the check of the installation. What `argparse` does is written as far as these files use it.
-/

namespace Verif.CommandLine
open Verif.Configure Verif.ProblemSteps

/-- The arguments before and after the first `--`, aviary/interface/cmd_entry_points.py:138-144. -/
def split (argv : List String) : List String × List String :=
  if "--" ∈ argv then (argv.take (argv.idxOf "--"), argv.drop (argv.idxOf "--" + 1)) else (argv, [])

/-- `a.startswith('-')`, aviary/interface/cmd_entry_points.py:165. -/
def dash (a : String) : Bool := a.toList.head? == some '-'

/-- The functions that are called for a command, aviary/interface/cmd_entry_points.py:46-67, 95-131. -/
inductive Ex
  | check | convert | runMission | drawMission | dashboard | plotDragPolar | rtplot
  | aeroTable | engineDeck | fortran | propeller
  deriving DecidableEq, Repr

/-- `_command_map`, aviary/interface/cmd_entry_points.py:95-131. -/
def commands : List (String × Ex) :=
  [("check", .check), ("convert", .convert), ("run_mission", .runMission), ("draw_mission", .drawMission), ("dashboard", .dashboard),
   ("plot_drag_polar", .plotDragPolar), ("rtplot", .rtplot)]

/-- `_convert_command_map`, aviary/interface/cmd_entry_points.py:46-67. -/
def conversions : List (String × Ex) :=
  [("aero_table", .aeroTable), ("engine_deck", .engineDeck), ("fortran_to_aviary", .fortran), ("propeller_table", .propeller)]

/-- The commands that are not helped, aviary/interface/cmd_entry_points.py:175. -/
def noHelp : List String := ["check", "draw_mission", "run_mission", "plot_drag_polar", "convert"]

/-- What `parser.parse_known_args()` gives: an exit, or the flag `version`, the unknown arguments and the attribute `executor`.
aviary/interface/cmd_entry_points.py:181. -/
inductive Parsed
  | exit (code : ℕ)
  | ok (version : Bool) (unknown : List String) (executor : Option Ex)
  deriving DecidableEq, Repr

/-- What `aviary_cmd` does, aviary/interface/cmd_entry_points.py:135-203. -/
inductive Outcome
  | exit (code : ℕ)
  | indexError
  | script (name : String) (args : List String)
  | version
  | nothing
  | call (e : Ex) (args : List String)
  deriving DecidableEq, Repr

/-- `parser.parse_args([a, '-h'])` always leaves the program: with the help of the whole, of the command, or with an invalid choice.
aviary/interface/cmd_entry_points.py:172-176. -/
def help (a : String) : Outcome :=
  if a = "-h" ∨ a ∈ commands.map Prod.fst then .exit 0 else .exit 2

/-- After parsing, aviary/interface/cmd_entry_points.py:181-203. -/
def after (user : List String) : Parsed → Outcome
  | .exit n => .exit n
  | .ok true _ _ => .version
  | .ok false (_ :: _) _ => .exit 2
  | .ok false [] (some e) => .call e user
  | .ok false [] none => .nothing

/-- `aviary_cmd`; `argv` has the name of the program first. aviary/interface/cmd_entry_points.py:135-203. -/
def dispatch (isFile : String → Bool) (parse : List String → Parsed) (argv : List String) : Outcome :=
  let s := split argv
  let rest := s.1.drop 1
  let args0 := rest.filter (fun a => !dash a)
  let cmdargs := rest.filter (fun a => a ≠ "-h")
  let args := if args0 = [] ∧ cmdargs = [] then ["-h"] else args0
  match args with
  | [a] =>
    if s.2 = [] ∧ a ∉ noHelp then help a
    else if a ∈ commands.map Prod.fst then after s.2 (parse rest)
    else match cmdargs with
      | [] => .indexError
      | f :: _ => if isFile f then .script a s.2 else after s.2 (parse rest)
  | _ => after s.2 (parse rest)

/-- The attribute `executor` after parsing a command and its first word: the default of the inner parser is set over that of the outer
one. aviary/interface/cmd_entry_points.py:70-80, 160-163. -/
def executorOf (cmd : String) (word : Option String) : Option Ex :=
  match commands.lookup cmd with
  | none => none
  | some .convert => match word with
    | none => some .convert
    | some w => conversions.lookup w
  | some e => some e

/-- One call of an executor: it ends with an exit, is finished, or calls another one. aviary/interface/cmd_entry_points.py:83-94. -/
inductive Turn
  | exit (code : ℕ)
  | done (e : Ex)
  | again (e : Ex)
  deriving DecidableEq, Repr

/-- `options.executor(options, user_args)`, where `opt` is the attribute. aviary/interface/cmd_entry_points.py:83-94, 202-203. -/
def turn (opt : Option Ex) : Ex → Turn
  | .convert => match opt with
    | none => .exit 1
    | some e => .again e
  | e => .done e

/-- At most `n` nested calls; `none` when they do not suffice. aviary/interface/cmd_entry_points.py:83-94, 202-203. -/
def run (opt : Option Ex) : ℕ → Ex → Option Turn
  | 0, _ => none
  | n + 1, e => match turn opt e with
    | .again e' => run opt n e'
    | t => some t

/-! ## `aviary run_mission` -/

/-- The parsed options; `nargs=1` makes a list of the deck. aviary/interface/run_aviary.py:160-188. -/
structure RunArgs where
  deck : List String
  optimizer : String
  phaseInfo : Option String
  maxIter : ℤ
  verbosity : ℤ
  rtplot : Bool
  deriving DecidableEq, Repr

/-- What is allowed by `choices`, aviary/interface/run_aviary.py:168-184. -/
def RunArgs.Allowed (a : RunArgs) : Prop :=
  a.deck.length = 1 ∧ a.optimizer ∈ ["SNOPT", "IPOPT", "SLSQP", "None"] ∧ a.verbosity ∈ [0, 1, 2, 3]

/-- The arguments of `run_aviary`; `P` are contents of files of phases. aviary/interface/run_aviary.py:127-157. -/
structure RunCall (P : Type) where
  deck : String
  optimizer : Option String
  phaseInfo : Option P
  maxIter : ℤ
  verbosity : Verb
  rtplot : Bool
  deriving DecidableEq, Repr

/-- `_exec_run_aviary` and `run_aviary_cmd`: the level is made an enum before the file of phases is read, and an empty list has no first
element. aviary/interface/run_aviary.py:127-157, 191-206. -/
def execRun {P : Type} (load : String → Except Err P) (a : RunArgs) : Except Err (RunCall P) :=
  match a.deck with
  | [] => .error .indexError
  | d :: _ =>
    match Verb.ofInt a.verbosity with
    | .error e => .error e
    | .ok v =>
      let opt := if a.optimizer = "None" then none else some a.optimizer
      match a.phaseInfo with
      | none => .ok ⟨d, opt, none, a.maxIter, v, a.rtplot⟩
      | some f => match load f with
        | .error e => .error e
        | .ok p => .ok ⟨d, opt, some p, a.maxIter, v, a.rtplot⟩

/-! ## The steps of a run -/

/-- The level of a problem after `load_inputs`: the one of the call or of the problem, else BRIEF whatever the deck says, and the level
of the call stays. aviary/core/aviary_problem.py:192-209, aviary/core/aviary_group.py:273-296, aviary/utils/process_input_decks.py:70-71,
aviary/utils/process_input_decks.py:118-122. -/
def levelAfter (own : Option Verb) (call : Option ℤ) : Except Err Verb :=
  match overrideVerbosity own call with
  | .error e => .error e
  | .ok v => .ok (v.getD .brief)

/-- The steps from preprocessing to `setup`. The driver and the objective change no group.
aviary/interface/run_aviary.py:94-114, aviary/core/aviary_problem.py:2112-2132. -/
def common (p : Prob) (v : Option ℤ) : Except Err Prob :=
  match p.step .preprocess v with
  | .error e => .error e
  | .ok p => match p.step .preMission v with
    | .error e => .error e
    | .ok p => match p.addPhases v with
      | .error e => .error e
      | .ok p => match p.step .postMission v with
        | .error e => .error e
        | .ok p => match p.step .link v with
          | .error e => .error e
          | .ok p => match p.step .designVars v with
            | .error e => .error e
            | .ok p => .ok p.setupMeta

/-- `run_aviary` up to `setup`; `t` and `payload` are the settings of the deck. A level that is no member is refused here when the problem
is made, in the code when the inputs are loaded. aviary/interface/run_aviary.py:76-114. -/
def runAviary (v : Option ℤ) (l : List Ext) (t : PType) (payload : Option Bool) : Except Err Prob :=
  match overrideVerbosity none v with
  | .error e => .error e
  | .ok own => match levelAfter own v with
    | .error e => .error e
    | .ok lv => match ((Prob.new none own).loadInputs t lv payload).loadExternal l v with
      | .error e => .error e
      | .ok p => common p v

/-- `reload_aviary_problem` up to `setup`, aviary/core/aviary_problem.py:2097-2126. -/
def reload (v : ℤ) (t : PType) (payload : Option Bool) : Except Err Prob :=
  match levelAfter none (some v) with
  | .error e => .error e
  | .ok lv => common ((Prob.new none none).loadInputs t lv payload) (some v)

/-! ## `aviary dashboard` -/

/-- `--save`: not given, given alone, or with a name. aviary/visualization/dashboard_cmd.py:50-56. -/
inductive Save | no | yes | named (s : String)
  deriving DecidableEq, Repr

/-- Truth of the option, aviary/visualization/dashboard_cmd.py:76. -/
def Save.truth : Save → Bool
  | .no => false
  | .yes => true
  | .named s => s ≠ ""

/-- What the command does: errors, a dashboard from a zip file (with the old directory removed or not), an archive of a directory, or a
dashboard. aviary/visualization/dashboard_cmd.py:65-131. -/
inductive Dash
  | typeError
  | runtimeError
  | unpacked (dir : String) (removed : Bool)
  | saved (stem dir : String)
  | shown (script : String)
  deriving DecidableEq, Repr

/-- `options.script_name` and `options.save` after the first lines, aviary/visualization/dashboard_cmd.py:76-79. -/
def nameOf (script : List String) (save : Save) : List String × Save :=
  if save.truth ∧ script = [] then
    match save with
    | .named s => ([s], .yes)
    | s => (script, s)
  else (script, save)

/-- `_dashboard_cmd`: `argparse.ArgumentError` takes two arguments and gets one. aviary/visualization/dashboard_cmd.py:65-131. -/
def dashboardCmd (isZip isDir : String → Bool) (stem : String → String) (force : Bool) (script : List String) (save : Save) : Dash :=
  match nameOf script save with
  | ([], _) => .typeError
  | (n :: _, sv) =>
    if isZip n then
      let dir := stem n ++ "_out"
      if !force && isDir dir then .runtimeError else .unpacked (stem n) (isDir dir)
    else match sv with
      | .no => .shown n
      | .yes => .saved n (n ++ "_out")
      | .named s => .saved (stem s) (n ++ "_out")

/-! ## `aviary check` -/

/-- What is found on the machine; `run` is the result of a run with an optimizer, `none` for an exception.
aviary/interface/installation_test.py:26-118. -/
structure Machine where
  openmdao : Bool
  pyoptsparse : Bool
  ipopt : Bool
  snopt : Bool
  api : Bool
  run : String → Option Bool

/-- The list of optimizers, aviary/interface/installation_test.py:48-70. -/
def Machine.optimizers (m : Machine) : List String :=
  ["SLSQP"] ++ (if m.pyoptsparse && m.ipopt then ["IPOPT"] else []) ++ (if m.pyoptsparse && m.snopt then ["SNOPT"] else [])

/-- `_exec_installation_test`, aviary/interface/installation_test.py:14-118. -/
def Machine.check (m : Machine) : Bool :=
  if !m.openmdao then false
  else if !m.api then false
  else match m.run (m.optimizers.getLastD "SLSQP") with
    | none => false
    | some b => b

/-- Exit code of `aviary check`: the value of the function is dropped. aviary/interface/cmd_entry_points.py:202-203,
aviary/interface/installation_test.py:118. -/
def Machine.exitCode (m : Machine) : ℕ :=
  match m.check with
  | _ => 0

end Verif.CommandLine
