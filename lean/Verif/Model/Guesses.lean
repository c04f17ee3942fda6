import Verif.Model.Dict
import Mathlib.Analysis.SpecialFunctions.Trigonometric.Inverse

/-!
# Initial guesses

Models /repo/aviary/utils/process_input_decks.py:304-476 `initialization_guessing` over the real numbers.
-/

namespace Verif
open Real

noncomputable section

/-- `ProblemType` members distinguished by the function; the remaining members behave alike (`other`).
Part of the model of /repo/aviary/utils/process_input_decks.py:304-476. -/
inductive ProbType
  | sizing | offDesignMinFuel | offDesignMaxRange | other
  deriving DecidableEq

/-- Aircraft values read by the function (lbm, NM, ft, lbf). `engines` = (reference thrust, scale factor,
number of engines) per engine model; `missionGross = none` when `Mission.GROSS_MASS` is not set;
`mach = none` when `Aircraft.Design.MACH` is not set.
Part of the model of /repo/aviary/utils/process_input_decks.py:304-476. -/
structure GuessIn where
  prob : ProbType
  pax : ℝ
  reserveAdd : ℝ
  reserveFrac : ℝ
  range : ℝ
  paxMass : ℝ
  missionGross : Option ℝ
  designGross : ℝ
  mach : Option ℝ
  cruiseMach : ℝ
  cruiseAlt : ℝ
  engines : List (ℝ × ℝ × ℝ)

/-- The guesses dictionary. Part of the model of /repo/aviary/utils/process_input_decks.py:304-476. -/
@[ext] structure Guess where
  takeoffMass : ℝ
  rotationMass : ℝ
  oem : ℝ
  burn : ℝ
  cruiseMassFinal : ℝ
  duration : ℝ
  timeToClimb : ℝ
  climbRange : ℝ
  reserves : ℝ

/-- aviary/utils/process_input_decks.py:328-329. -/
def guessBurn (g : Guess) : ℝ := if g.burn ≤ 0 then 0.1 else g.burn

/-- aviary/utils/process_input_decks.py:331-348. -/
def guessReserves (i : GuessIn) (g : Guess) : Except Err ℝ :=
  if g.reserves < 0 then .error .valueError
  else if g.reserves = 0 then
    .ok (g.reserves + i.reserveAdd + i.reserveFrac * (i.pax * guessBurn g * i.range))
  else if g.reserves < 10 then .ok (g.reserves * (i.pax * guessBurn g * i.range))
  else .ok g.reserves

/-- aviary/utils/process_input_decks.py:352-381: mission mass. -/
def guessMass (i : GuessIn) (g : Guess) (reserves : ℝ) : ℝ :=
  let m := match i.missionGross with
    | some m => m
    | none => i.designGross
  if m ≤ 0 then
    match i.prob with
    | .offDesignMinFuel =>
      g.oem + i.pax * i.paxMass + (i.pax * (guessBurn g * i.range) + reserves)
    | .offDesignMaxRange => i.designGross
    | .sizing => i.designGross
    | .other => m
  else m

/-- aviary/utils/process_input_decks.py:383-402. -/
def guessCruiseMass (i : GuessIn) (g : Guess) (reserves mass : ℝ) : ℝ :=
  let c := if g.cruiseMassFinal = 0 then
      match i.prob with
      | .sizing => 0.8
      | .offDesignMinFuel => -1
      | _ => g.cruiseMassFinal
    else g.cruiseMassFinal
  if c ≤ 0 then g.oem + i.pax * i.paxMass + reserves
  else if c ≤ 1 then mass * c
  else c

/-- aviary/utils/process_input_decks.py:404-409. -/
def guessRotation (g : Guess) (mass : ℝ) : ℝ :=
  let r := if g.rotationMass ≤ 0 then 0.99 else g.rotationMass
  if r ≤ 1 then mass * r else r

/-- aviary/utils/process_input_decks.py:411-414. -/
def guessMach (i : GuessIn) : ℝ := i.mach.getD i.cruiseMach

/-- aviary/utils/process_input_decks.py:416-425. -/
def guessDuration (i : GuessIn) (g : Guess) : ℝ :=
  if g.duration ≤ 0 then i.range / (667 * guessMach i) * (60 * 60)
  else if g.duration ≤ 15 then g.duration * (60 * 60)
  else g.duration

/-- aviary/utils/process_input_decks.py:427-442. -/
def totalThrust (i : GuessIn) : ℝ := (i.engines.map (fun e => e.1 * e.2.1 * e.2.2)).sum

/-- aviary/utils/process_input_decks.py:447; `np.clip(x, -1, 1) = min(max(x, -1), 1)`. -/
def guessGamma (i : GuessIn) (mass : ℝ) : ℝ := arcsin (min (max (0.5 * totalThrust i / mass) (-1)) 1)

/-- aviary/utils/process_input_decks.py:448. -/
def guessSpeed (i : GuessIn) : ℝ := 0.5 * 667 * guessMach i

/-- aviary/utils/process_input_decks.py:450-463. -/
def guessClimbTime (i : GuessIn) (g : Guess) (mass : ℝ) : ℝ :=
  if g.timeToClimb ≤ 0 then i.cruiseAlt / (guessSpeed i * sin (guessGamma i mass))
  else if g.timeToClimb ≤ 2 then g.timeToClimb * (60 * 60)
  else if g.timeToClimb ≤ 200 then i.cruiseAlt / g.timeToClimb
  else g.timeToClimb

/-- aviary/utils/process_input_decks.py:465-471. -/
def guessClimbRange (i : GuessIn) (g : Guess) (mass t : ℝ) : ℝ :=
  if g.climbRange ≤ 0 then t / (60 * 60) * (guessSpeed i * cos (guessGamma i mass))
  else g.climbRange

/-- `initialization_guessing`, aviary/utils/process_input_decks.py:304-476. -/
def initGuess (i : GuessIn) (g : Guess) : Except Err Guess :=
  match guessReserves i g with
  | .error e => .error e
  | .ok r =>
    let mass := guessMass i g r
    let t := guessClimbTime i g mass
    .ok { takeoffMass := mass
          rotationMass := guessRotation g mass
          oem := g.oem
          burn := guessBurn g
          cruiseMassFinal := guessCruiseMass i g r mass
          duration := guessDuration i g
          timeToClimb := t
          climbRange := guessClimbRange i g mass t
          reserves := r }

end
end Verif
