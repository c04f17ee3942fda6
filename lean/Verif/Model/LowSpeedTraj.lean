/-!
# Trajectory builders of detailed takeoff and landing

`TakeoffTrajectory` and `LandingTrajectory`, branch by branch: the setters that assign the
phase builders, `_add_phases`, `_link_phases`, and the requests of `build_phase` that bound a phase
at its ends.  Dymos itself is represented by what it is asked for: the dictionary of phases, the
list of `link_phases` requests and the linkage constraint.

Simplifications: a phase builder is its name and its class with the few options that bound the
phase; the argument of a setter is never `None`; the parameters of the trajectory and the initial
guesses are left out.
-/

namespace Verif.LowSpeed

/-- The variables that are linked
(`aviary/mission/energy_state/phases/detailed_takeoff_phases.py:3024-3050`,
`aviary/mission/energy_state/phases/detailed_landing_phases.py:1513-1526`), and the speed over the
stall speed, which is only constrained. -/
inductive Var
  | time | distance | velocity | mass | aoa | fpa | altitude | vOverStall
  deriving DecidableEq, Repr

/-- The classes of phase builders whose requests matter below
(`aviary/mission/energy_state/phases/detailed_takeoff_phases.py:114-2740`).  `other` stands for
every other builder. -/
inductive Kind
  | speedToRotate
  | brakeDelay
  | liftoffToObstacle (altitudeRef obstacleHeight airportAltitude : Int)
  | cutbackToMicP1 (micRange : Int)
  | micP1ToClimb (micRange : Int)
  | other
  deriving DecidableEq, Repr

/-- A phase builder: its name and class.
Part of the model of aviary/mission/energy_state/phases/detailed_takeoff_phases.py:3093. -/
structure Builder where
  name : String
  kind : Kind
  deriving DecidableEq, Repr

/-- What a `build_phase` asks of the ends of its phase, in the units of its options; numbers of the
constraints on the speed ratio are in hundredths.
Part of the model of aviary/mission/energy_state/phases/detailed_takeoff_phases.py:383-466. -/
inductive Req
  /-- `duration_bounds=(1, …)` -/
  | durationAtLeast (s : Int)
  /-- `fix_duration=True`: the duration is not a design variable -/
  | durationFixed
  /-- the upper bound of a state, at every node -/
  | upper (v : Var) (q : Int)
  /-- the lower bound of a state, at every node -/
  | lower (v : Var) (q : Int)
  /-- `add_boundary_constraint(v, loc='final', equals=q)` -/
  | finalEquals (v : Var) (q : Int)
  /-- `add_boundary_constraint(v, loc='final', lower=q)`, in hundredths -/
  | finalAtLeast (v : Var) (hundredths : Int)
  deriving DecidableEq, Repr

/-- `TakeoffDecisionSpeedToRotate.build_phase`, the part on time and boundaries
(`aviary/mission/energy_state/phases/detailed_takeoff_phases.py:383-466`). -/
def speedToRotateReqs : List Req :=
  [.durationAtLeast 1, .lower .distance 0, .lower .velocity 0, .finalAtLeast .vOverStall 120]

/-- The requests of each class:
`aviary/mission/energy_state/phases/detailed_takeoff_phases.py:383-466` (decision speed to rotate),
`:562-581` (brake delay: what the base class asks for and a fixed duration), `:952-1080` (liftoff to
obstacle), `:2116-2232` (engine cutback to the P1 microphone), `:2410-2526` (P1 microphone to
climb). -/
def reqs : Kind → List Req
  | .speedToRotate => speedToRotateReqs
  | .brakeDelay => speedToRotateReqs ++ [.durationFixed]
  | .liftoffToObstacle altitudeRef obstacleHeight airportAltitude =>
      [.durationAtLeast 1, .lower .distance 0, .lower .altitude 0, .upper .altitude altitudeRef,
        .lower .velocity 0, .lower .fpa 0,
        .finalEquals .altitude (obstacleHeight + airportAltitude)]
  | .cutbackToMicP1 micRange =>
      [.durationAtLeast 1, .lower .distance 0, .lower .altitude 0, .lower .velocity 0,
        .lower .fpa 0, .finalEquals .distance micRange, .finalAtLeast .vOverStall 125]
  | .micP1ToClimb micRange =>
      [.durationAtLeast 1, .lower .distance 0, .lower .altitude 0, .lower .velocity 0,
        .lower .fpa 0, .finalEquals .distance micRange, .finalAtLeast .vOverStall 125]
  | .other => []

/-- The errors of building a trajectory: `.name` of `None`
(`aviary/mission/energy_state/phases/detailed_takeoff_phases.py:3088`,
`aviary/mission/energy_state/phases/detailed_landing_phases.py:1544`). -/
inductive Err
  | attributeError
  deriving DecidableEq, Repr

/-- `self._phases[name] = …` on an insertion ordered dictionary: an existing key keeps its place
(`aviary/mission/energy_state/phases/detailed_takeoff_phases.py:3093`). -/
def put (d : List (String × Builder)) (b : Builder) : List (String × Builder) :=
  if d.any (fun p => p.1 == b.name) then
    d.map fun p => if p.1 == b.name then (p.1, b) else p
  else d ++ [(b.name, b)]

/-- `_add_phase` (`aviary/mission/energy_state/phases/detailed_takeoff_phases.py:3087-3093`,
`aviary/mission/energy_state/phases/detailed_landing_phases.py:1543-1549`). -/
def addPhase (d : List (String × Builder)) : Option Builder → Except Err (List (String × Builder))
  | none => .error .attributeError
  | some b => .ok (put d b)

/-- The name of a builder; reading it from `None` is an error
(`aviary/mission/energy_state/phases/detailed_takeoff_phases.py:3022`). -/
def nameOf : Option Builder → Except Err String
  | none => .error .attributeError
  | some b => .ok b.name

/-- `traj.link_phases([a, b], vars=vars)`: the end of `a` is to equal the start of `b`
(`aviary/mission/energy_state/phases/detailed_takeoff_phases.py:3027`). -/
structure Link where
  a : String
  b : String
  vars : List Var
  deriving DecidableEq, Repr

/-- What building leaves behind: the phases, the links, and the linkage constraints between final
values. Part of the model of aviary/mission/energy_state/phases/detailed_takeoff_phases.py:2900-2961. -/
structure Built where
  phases : List (String × Builder)
  links : List Link
  finals : List (String × String × Var)
  deriving DecidableEq, Repr

/-- `basic_vars` (`aviary/mission/energy_state/phases/detailed_takeoff_phases.py:3025`,
`aviary/mission/energy_state/phases/detailed_landing_phases.py:1513`). -/
def basicVars : List Var := [.time, .distance, .velocity, .mass]

/-- `ext_vars` (`aviary/mission/energy_state/phases/detailed_takeoff_phases.py:3031`,
`aviary/mission/energy_state/phases/detailed_landing_phases.py:1514`). -/
def extVars : List Var := basicVars ++ [.aoa]

/-! ## Takeoff -/

/-- The builders of a takeoff
(`aviary/mission/energy_state/phases/detailed_takeoff_phases.py:2754-2775`). -/
structure Takeoff where
  release : Option Builder := none
  decision : Option Builder := none
  rotate : Option Builder := none
  liftoff : Option Builder := none
  micP2 : Option Builder := none
  cutbackStart : Option Builder := none
  cutback : Option Builder := none
  micP1 : Option Builder := none
  climb : Option Builder := none
  brake : Option Builder := none
  abort : Option Builder := none
  deriving DecidableEq, Repr

/-- The setters
(`aviary/mission/energy_state/phases/detailed_takeoff_phases.py:2796-2898`). -/
inductive Slot
  | release | decision | rotate | liftoff | micP2 | cutbackStart | cutback | micP1 | climb
  | brake | abort
  deriving DecidableEq, Repr

/-- The builder kept for a setter.
Part of the model of aviary/mission/energy_state/phases/detailed_takeoff_phases.py:2796-2898. -/
def Takeoff.get (t : Takeoff) : Slot → Option Builder
  | .release => t.release
  | .decision => t.decision
  | .rotate => t.rotate
  | .liftoff => t.liftoff
  | .micP2 => t.micP2
  | .cutbackStart => t.cutbackStart
  | .cutback => t.cutback
  | .micP1 => t.micP1
  | .climb => t.climb
  | .brake => t.brake
  | .abort => t.abort

/-- One call of a setter
(`aviary/mission/energy_state/phases/detailed_takeoff_phases.py:2796-2898`). -/
def Takeoff.set (t : Takeoff) (s : Slot) (b : Builder) : Takeoff :=
  match s with
  | .release => { t with release := some b }
  | .decision => { t with decision := some b }
  | .rotate => { t with rotate := some b }
  | .liftoff => { t with liftoff := some b }
  | .micP2 => { t with micP2 := some b }
  | .cutbackStart => { t with cutbackStart := some b }
  | .cutback => { t with cutback := some b }
  | .micP1 => { t with micP1 := some b }
  | .climb => { t with climb := some b }
  | .brake => { t with brake := some b }
  | .abort => { t with abort := some b }

/-- A sequence of setter calls on a new trajectory builder.
Part of the model of aviary/mission/energy_state/phases/detailed_takeoff_phases.py:2796-2898. -/
def Takeoff.run (ops : List (Slot × Builder)) : Takeoff :=
  ops.foldl (fun t o => t.set o.1 o.2) {}

/-- `TakeoffTrajectory._add_phases`
(`aviary/mission/energy_state/phases/detailed_takeoff_phases.py:2988-3017`). -/
def Takeoff.addPhases (t : Takeoff) : Except Err (List (String × Builder)) := do
  let d ← addPhase [] t.release
  let d ← addPhase d t.decision
  let d ← addPhase d t.rotate
  let d ← addPhase d t.liftoff
  let d ← if t.micP2.isSome then do
      let d ← addPhase d t.micP2
      let d ← addPhase d t.cutbackStart
      let d ← addPhase d t.cutback
      let d ← addPhase d t.micP1
      addPhase d t.climb
    else pure d
  if t.brake.isSome then do
    let d ← addPhase d t.brake
    addPhase d t.abort
  else pure d

/-- `acoustics_vars` (`aviary/mission/energy_state/phases/detailed_takeoff_phases.py:3048`). -/
def acousticVars : List Var := extVars ++ [.fpa, .altitude]

/-- `TakeoffTrajectory._link_phases`
(`aviary/mission/energy_state/phases/detailed_takeoff_phases.py:3019-3085`). -/
def Takeoff.linkPhases (t : Takeoff) : Except Err (List Link × List (String × String × Var)) := do
  let release ← nameOf t.release
  let decision ← nameOf t.decision
  let rotate ← nameOf t.rotate
  let liftoff ← nameOf t.liftoff
  let main : List Link :=
    [⟨release, decision, basicVars⟩, ⟨decision, rotate, extVars⟩, ⟨rotate, liftoff, extVars⟩]
  let acoustic : List Link ← if t.micP2.isSome then do
      let micP2 ← nameOf t.micP2
      let cutbackStart ← nameOf t.cutbackStart
      let cutback ← nameOf t.cutback
      let micP1 ← nameOf t.micP1
      let climb ← nameOf t.climb
      pure [⟨liftoff, micP2, acousticVars⟩, ⟨micP2, cutbackStart, acousticVars⟩,
        ⟨cutbackStart, cutback, acousticVars⟩, ⟨cutback, micP1, acousticVars⟩,
        ⟨micP1, climb, acousticVars⟩]
    else pure []
  if t.brake.isSome then do
    let brake ← nameOf t.brake
    let abort ← nameOf t.abort
    pure (main ++ acoustic ++ [⟨release, brake, basicVars⟩, ⟨brake, abort, basicVars⟩],
      [(abort, liftoff, .distance)])
  else pure (main ++ acoustic, [])

/-- `TakeoffTrajectory.build_trajectory` without a model
(`aviary/mission/energy_state/phases/detailed_takeoff_phases.py:2900-2961`). -/
def Takeoff.build (t : Takeoff) : Except Err Built := do
  let phases ← t.addPhases
  let (links, finals) ← t.linkPhases
  pure ⟨phases, links, finals⟩

/-! ## Landing -/

/-- The builders of a landing
(`aviary/mission/energy_state/phases/detailed_landing_phases.py:1324-1338`). -/
structure Landing where
  approach : Option Builder := none
  micP3 : Option Builder := none
  obstacle : Option Builder := none
  flare : Option Builder := none
  touchdown : Option Builder := none
  noseDown : Option Builder := none
  deriving DecidableEq, Repr

/-- `LandingTrajectory._add_phases`
(`aviary/mission/energy_state/phases/detailed_landing_phases.py:1496-1508`). -/
def Landing.addPhases (t : Landing) : Except Err (List (String × Builder)) := do
  let d ← if t.approach.isSome then do
      let d ← addPhase [] t.approach
      addPhase d t.micP3
    else pure []
  let d ← addPhase d t.obstacle
  let d ← addPhase d t.flare
  let d ← addPhase d t.touchdown
  addPhase d t.noseDown

/-- `obstacle_vars` (`aviary/mission/energy_state/phases/detailed_landing_phases.py:1525`). -/
def obstacleVars : List Var := [.mass, .time, .altitude, .aoa]

/-- `LandingTrajectory._link_phases`
(`aviary/mission/energy_state/phases/detailed_landing_phases.py:1510-1541`). -/
def Landing.linkPhases (t : Landing) : Except Err (List Link) := do
  let obstacle ← nameOf t.obstacle
  let before : List Link ← if t.approach.isSome then do
      let approach ← nameOf t.approach
      let micP3 ← nameOf t.micP3
      pure [⟨micP3, obstacle, obstacleVars⟩,
        ⟨approach, micP3, obstacleVars ++ [.distance, .velocity]⟩]
    else pure []
  let flare ← nameOf t.flare
  let touchdown ← nameOf t.touchdown
  let noseDown ← nameOf t.noseDown
  pure (before ++ [⟨obstacle, flare, extVars ++ [.altitude]⟩, ⟨flare, touchdown, extVars⟩,
    ⟨touchdown, noseDown, basicVars⟩])

/-- `LandingTrajectory.build_trajectory` without a model
(`aviary/mission/energy_state/phases/detailed_landing_phases.py:1400-1469`). -/
def Landing.build (t : Landing) : Except Err Built := do
  let phases ← t.addPhases
  let links ← t.linkPhases
  pure ⟨phases, links, []⟩

end Verif.LowSpeed
