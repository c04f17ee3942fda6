import Verif.Model.Configurators
import Mathlib.Data.Rat.Defs
import Mathlib.Order.Lattice

/-!
# The steps of a problem with one or several missions

aviary/core/aviary_problem.py: choice between one group and several, loading of subsystems, settings of the driver, range of the design,
promotion of inputs and what a run does.
-/

namespace Verif.ProblemSteps
open Verif.Configure

/-- `ProblemType`, aviary/variable_info/enums.py:201-234. -/
inductive PType | sizing | offDesignMinFuel | offDesignMaxRange | multiMission
  deriving DecidableEq, Repr

/-- The steps that are handed on to the groups, with the verbosity they get (`none`: the level of the group itself).
aviary/core/aviary_problem.py:326-491, aviary/core/aviary_problem.py:654-662. -/
inductive Step | preprocess | preMission | phases | postMission | link | designVars
  deriving DecidableEq, Repr

/-- What is followed of a group: engine models, loaded subsystems, names of merged metadata, the subsystems that the analysis uses, and
the steps made.  aviary/core/aviary_group.py:75-88, aviary/core/aviary_group.py:524-530. -/
structure Grp where
  loaded : Loaded
  subsystems : List String
  steps : List (Step × Option Verb)
  deriving DecidableEq, Repr

/-- aviary/core/aviary_group.py:75-88. -/
def Grp.new (metas : List String) : Grp := ⟨⟨[], [], metas, 0⟩, [], []⟩

/-- The names of the core subsystems, aviary/core/aviary_group.py:475-525. -/
def core : List String := ["propulsion", "geometry", "energy", "mass", "aerodynamics", "performance"]

/-- `check_and_preprocess_inputs` as far as subsystems go: without an engine model the deck of the user is built, and the list of
subsystems is formed from those loaded so far.  aviary/core/aviary_group.py:453-454, aviary/core/aviary_group.py:524-525. -/
def preprocess (g : Grp) : Grp :=
  { g with
    loaded := { g.loaded with engines := if g.loaded.engines = [] then ["engine_deck"] else g.loaded.engines }
    subsystems := core ++ g.loaded.externals }

/-- One step of a group, aviary/core/aviary_problem.py:326-491. -/
def Grp.make (s : Step) (v : Option Verb) (g : Grp) : Grp :=
  let g' := if s = .preprocess then preprocess g else g
  { g' with steps := g'.steps ++ [(s, v)] }

/-- The problem: its type (`None` until `load_inputs`), the single group (an empty `om.Group` for several missions), the named groups,
verbosity, names of merged metadata, and the flag of the payload-range diagram.  aviary/core/aviary_problem.py:76-123. -/
structure Prob where
  ptype : Option PType
  model : Grp
  groups : Dict String Grp
  verb : Option Verb
  metas : List String
  payload : Bool
  deriving DecidableEq, Repr

/-- `__init__`, aviary/core/aviary_problem.py:76-123. -/
def Prob.new (t : Option PType) (v : Option Verb) : Prob := ⟨t, Grp.new [], [], v, [], false⟩

/-- A step of the problem: each group of a problem with several missions, else the model.
aviary/core/aviary_problem.py:326-346, aviary/core/aviary_problem.py:350-378, aviary/core/aviary_problem.py:380-421,
aviary/core/aviary_problem.py:425-459, aviary/core/aviary_problem.py:461-491, aviary/core/aviary_problem.py:615-662. -/
def Prob.step (p : Prob) (s : Step) (v : Option ℤ) : Except Err Prob :=
  match overrideVerbosity p.verb v with
  | .error e => .error e
  | .ok v' => .ok (if p.ptype = some .multiMission then { p with groups := p.groups.map (fun q => (q.1, q.2.make s v')) }
      else { p with model := p.model.make s v' })

/-- `add_phases` returns the trajectory of the last group, and the name is unbound without one.
aviary/core/aviary_problem.py:404-421. -/
def Prob.addPhases (p : Prob) (v : Option ℤ) : Except Err Prob :=
  if p.ptype = some .multiMission ∧ p.groups = [] then
    match overrideVerbosity p.verb v with
    | .error e => .error e
    | .ok _ => .error .unboundLocal
  else p.step .phases v

/-- `build_model`: the four steps group by group.  aviary/core/aviary_problem.py:1095-1121. -/
def Prob.build (p : Prob) (v : Option ℤ) : Except Err Prob :=
  match overrideVerbosity p.verb v with
  | .error e => .error e
  | .ok v' =>
    let f := fun g : Grp => (((g.make .preMission v').make .phases v').make .postMission v').make .link v'
    .ok (if p.ptype = some .multiMission then { p with groups := p.groups.map (fun q => (q.1, f q.2)) }
      else { p with model := f p.model })

/-- `load_inputs` of a problem with one mission: metadata of the problem goes to the model, the type of the first file is kept, and the
flag is taken when it is given.  aviary/core/aviary_problem.py:192-220. -/
def Prob.loadInputs (p : Prob) (fileType : PType) (fileVerb : Verb) (payload : Option Bool) : Prob :=
  { p with model := { p.model with loaded := { p.model.loaded with metas := p.metas } }, verb := some fileVerb,
           ptype := some (p.ptype.getD fileType), payload := payload.getD p.payload }

/-- `add_aviary_group`: the `ValueError` for other problem types is built and not raised; the group gets the metadata of the problem, is
loaded and preprocessed at once.  A name that is used twice is an error of OpenMDAO.  `v` is the verbosity after loading.
aviary/core/aviary_problem.py:251-324. -/
def Prob.addGroup (p : Prob) (name : String) (v : Verb) (payload : Option Bool) : Except Err Prob :=
  if p.groups.has name then .error .runtimeError
  else .ok { p with groups := p.groups.set name ((Grp.new p.metas).make .preprocess none),
                    verb := some (p.verb.getD v), payload := payload.getD p.payload }

/-- The loop over the groups; an exception leaves it.  aviary/core/aviary_problem.py:239-244. -/
def loadAll (v : Option Verb) (l : List Ext) : Dict String Grp → Except Err (Dict String Grp)
  | [] => .ok []
  | (n, g) :: r => match loadExternals v l g.loaded with
    | (_, some e) => .error e
    | (ld, none) => match loadAll v l r with
      | .error e => .error e
      | .ok r' => .ok ((n, { g with loaded := ld }) :: r')

/-- `load_external_subsystems`: the metadata of the last group is merged into that of the problem; without a group the name is unbound.
The union is written as concatenation.  aviary/core/aviary_problem.py:222-249. -/
def Prob.loadExternal (p : Prob) (l : List Ext) (v : Option ℤ) : Except Err Prob :=
  match overrideVerbosity p.verb v with
  | .error e => .error e
  | .ok v' =>
    if p.ptype = some .multiMission then
      match loadAll v' l p.groups with
      | .error e => .error e
      | .ok gs => match gs.getLast? with
        | none => .error .unboundLocal
        | some q => .ok { p with groups := gs, metas := p.metas ++ q.2.loaded.metas }
    else match loadExternals v' l p.model.loaded with
      | (_, some e) => .error e
      | (ld, none) => .ok { p with model := { p.model with loaded := ld }, metas := p.metas ++ ld.metas }

/-- `setup`: all groups get the metadata of the problem.  aviary/core/aviary_problem.py:1160-1180. -/
def Prob.setupMeta (p : Prob) : Prob :=
  if p.ptype = some .multiMission then
    { p with groups := p.groups.map (fun q => (q.1, { q.2 with loaded := { q.2.loaded with metas := p.metas } })) }
  else { p with model := { p.model with loaded := { p.model.loaded with metas := p.metas } } }

/-! ## The driver -/

/-- Values of options, aviary/core/aviary_problem.py:542-612. -/
inductive OVal | b (x : Bool) | i (x : ℤ) | f (x : ℚ) | s (x : String) | l (x : List String)
  deriving DecidableEq, Repr

/-- The driver: SciPy or pyOptSparse, options, settings of the optimizer, and flags of the colouring.
aviary/core/aviary_problem.py:527-612. -/
structure Driver where
  scipy : Bool
  options : Dict String OVal
  settings : Dict String OVal
  coloring : Option (Bool × Bool)
  deriving DecidableEq, Repr

/-- aviary/core/aviary_problem.py:535-542. -/
def coloringOf : Verb → Bool × Bool
  | .quiet => (false, false)
  | .brief => (false, false)
  | .verbose => (true, false)
  | .debug => (true, true)

/-- The settings of SNOPT, aviary/core/aviary_problem.py:544-557. -/
def snopt (v : Verb) (n : ℤ) : Dict String OVal :=
  let (isumm, iprint) : ℤ × ℤ := match v with
    | .quiet => (0, 0)
    | .brief => (6, 0)
    | _ => (6, 9)
  [("iSumm", .i isumm), ("iPrint", .i iprint), ("Major iterations limit", .i n),
    ("Major optimality tolerance", .f (1 / 10000)), ("Major feasibility tolerance", .f (1 / 1000000))]

/-- The settings of IPOPT, aviary/core/aviary_problem.py:559-580. -/
def ipopt (v : Verb) (n : ℤ) : Dict String OVal :=
  let head : Dict String OVal := match v with
    | .quiet => [("print_user_options", .s "no"), ("print_level", .i 0)]
    | .brief => [("print_user_options", .s "no"), ("print_frequency_iter", .i 10), ("print_level", .i 3)]
    | .verbose => [("print_level", .i 5)]
    | .debug => [("print_level", .i 7)]
  head ++ [("tol", .f (1 / 1000000)), ("mu_init", .f (1 / 100000)), ("max_iter", .i n), ("nlp_scaling_method", .s "gradient-based"),
    ("alpha_for_y", .s "safer-min-dual-infeas"), ("mu_strategy", .s "monotone")]

/-- The last options of pyOptSparse, aviary/core/aviary_problem.py:597-604. -/
def printOptions : Verb → Dict String OVal
  | .quiet => [("print_results", .b false)]
  | .brief => [("print_results", .s "minimal")]
  | .verbose => [("print_results", .s "minimal")]
  | .debug => [("print_opt_prob", .b true)]

/-- Options for all optimizers, aviary/core/aviary_problem.py:606-612. -/
def debugOptions : Verb → Dict String OVal
  | .debug => [("debug_print", .l ["desvars", "ln_cons", "nl_cons", "objs"])]
  | _ => []

/-- `add_driver` for a verbosity that is known.  The driver is new, so `setdefault` always sets.  aviary/core/aviary_problem.py:516-612. -/
def addDriver (v : Verb) (optimizer : Option String) (coloring : Option Bool) (maxIter : Option ℤ) : Driver :=
  let o := optimizer.getD "IPOPT"
  let n := maxIter.getD 50
  let c := if coloring.getD true then some (coloringOf v) else none
  if o = "SNOPT" then ⟨false, ("optimizer", .s o) :: (printOptions v ++ debugOptions v), snopt v n, c⟩
  else if o = "IPOPT" then ⟨false, ("optimizer", .s o) :: (printOptions v ++ debugOptions v), ipopt v n, c⟩
  else if o = "SLSQP" then
    ⟨true, ("optimizer", .s o) :: ("disp", .b (v ≠ .quiet)) :: ("tol", .f (1 / 1000000000)) :: ("maxiter", .i n) :: debugOptions v, [], c⟩
  else ⟨false, ("optimizer", .s o) :: debugOptions v, [], c⟩

/-! ## Range of the design and promotion of inputs -/

/-- `np.max` of a list, aviary/core/aviary_problem.py:851. -/
def npMax : List ℚ → Except Err ℚ
  | [] => .error .valueError
  | x :: r => .ok (r.foldl max x)

/-- The ranges of the groups that are named, `none` for a missing `target_range`.  aviary/core/aviary_problem.py:841-849. -/
def rangesOf (db : UnitDB) (missions : List String) : Dict String (Option (ℚ × String)) → Except Err (List ℚ)
  | [] => .ok []
  | (n, t) :: r =>
    if n ∈ missions then
      match t with
      | none => .error .keyError
      | some (x, u) => match convertUnits db x u "nmi" with
        | .error e => .error e
        | .ok y => match rangesOf db missions r with
          | .error e => .error e
          | .ok ys => .ok (y :: ys)
    else rangesOf db missions r

/-- `set_design_range`, aviary/core/aviary_problem.py:826-852. -/
def designRange (db : UnitDB) (missions : List String) (groups : Dict String (Option (ℚ × String))) : Except Err ℚ :=
  match rangesOf db missions groups with
  | .error e => .error e
  | .ok l => npMax l

/-- `promote_inputs`: the calls of `promotes`.  aviary/core/aviary_problem.py:1123-1143. -/
def promoteInputs {α : Type} (groups missions : List String) (pairs : α) : List (String × α) :=
  groups.flatMap (fun n => (missions.filter (fun m => n = m)).map (fun m => (m, pairs)))

/-! ## A run -/

/-- What a run does besides the analysis.  aviary/core/aviary_problem.py:1276-1355. -/
inductive Event | recorder | finalSetup | inputList | plotHook | quietSolvers | optimize | warn | runModel | n2 | outputList | payloadRange
  deriving DecidableEq, Repr

/-- `run_aviary_problem`; the driver is always an object, so the second exception cannot come.  `None >= Verbosity.VERBOSE` is a
`TypeError`.  aviary/core/aviary_problem.py:1276-1355. -/
def run (p : Prob) (v : Option ℤ) (suppress driver realTime success : Bool) : Except Err (List Event) :=
  match overrideVerbosity p.verb v with
  | .error e => .error e
  | .ok none => .error .typeError
  | .ok (some w) =>
    let loud : Bool := decide (2 ≤ w.toInt)
    .ok ((if loud || realTime then [.recorder, .finalSetup] else []) ++ (if loud then [.inputList] else [])
      ++ (if realTime then [.plotHook] else []) ++ (if suppress then [.quietSolvers] else [])
      ++ (if driver then .optimize :: (if !success && decide (w.toInt ≤ 1) then [.warn] else []) else [.runModel])
      ++ [.n2] ++ (if loud then [.outputList] else [])
      ++ (if p.payload && decide (p.ptype = some .sizing) then [.payloadRange] else []))

end Verif.ProblemSteps
