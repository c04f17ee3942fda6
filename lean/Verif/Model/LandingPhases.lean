import Verif.Model.Dict
import Verif.Model.LowSpeedTraj
import Mathlib.Data.Rat.Defs

/-!
# The phases of the detailed landing

Hand-written model of the builders of aviary/mission/energy_state/phases/detailed_landing_phases.py:53-1304. A phase is what dymos is asked
for: bounds of the duration, states, controls and constraints at the ends. Simplifications: options are numbers in the units of their
declaration, and altitudes of the aircraft are in the units of the option they are added to; the variables written to the time series and the
scaling of defects and of the angle of attack are left out.
-/

namespace Verif.LandingPhases

open Verif Verif.LowSpeed

/-- The six builders, aviary/mission/energy_state/phases/detailed_landing_phases.py:123, 323, 445, 694, 949, 1151. -/
inductive LKind
  | approach | micP3 | obstacle | flare | touchdown | stop
  deriving DecidableEq, Repr

/-- `declare_options` of the six classes of options with their defaults,
aviary/mission/energy_state/phases/detailed_landing_phases.py:54-110, 422-441, 637-689, 906-943, 1121-1147; the builder of the phase from the
microphone inherits its options. -/
def declared : LKind → Dict String ℚ
  | .approach | .micP3 => [("max_duration", 100), ("time_duration_ref", 1), ("time_initial_ref", 10), ("distance_max", 1000),
      ("max_velocity", 100), ("altitude_ref", 1), ("lower_angle_of_attack", -10), ("upper_angle_of_attack", 15),
      ("angle_of_attack_ref", 10), ("initial_height", 1)]
  | .obstacle => [("max_duration", 100), ("distance_max", 1000), ("max_velocity", 100), ("altitude_ref", 1)]
  | .flare => [("max_duration", 100), ("time_duration_ref", 1), ("time_initial_ref", 10), ("distance_max", 1000),
      ("max_velocity", 100), ("altitude_ref", 1), ("lower_angle_of_attack", -10), ("upper_angle_of_attack", 15),
      ("angle_of_attack_ref", 10)]
  | .touchdown => [("max_duration", 5), ("time_duration_ref", 1), ("time_initial_ref", 10), ("distance_max", 1000),
      ("max_velocity", 100), ("altitude_ref", 1), ("max_angle_of_attack", 10)]
  | .stop => [("max_duration", 1000), ("time_duration_ref", 10), ("time_initial_ref", 10), ("distance_max", 1000), ("max_velocity", 100)]

/-- Setting the options of the user one after the other, aviary/utils/aviary_options_dict.py:64-79. An option which is not declared is
a KeyError. -/
def setAll (d : Dict String ℚ) : List (String × ℚ) → Except Err (Dict String ℚ)
  | [] => .ok d
  | (k, v) :: r => if d.has k then setAll (d.set k v) r else .error .keyError

/-- `user_options[name]`, aviary/mission/energy_state/phases/detailed_landing_phases.py:202-204. -/
def opt (d : Dict String ℚ) (k : String) : Except Err ℚ := match d.get? k with
  | none => .error .keyError
  | some v => .ok v

/-- The two altitudes of the aircraft options: absent, stored as `None`, or a number,
aviary/mission/energy_state/phases/detailed_landing_phases.py:589-594. -/
structure Av where
  airport : Option ℚ
  obstacle : Option (Option ℚ)
  deriving DecidableEq, Repr

/-- The altitude of the airport, which has to be there; the base class makes empty options of `None` for itself only,
aviary/mission/energy_state/phases/detailed_landing_phases.py:287. -/
def airport : Option Av → Except Err ℚ
  | none => .error .attributeError
  | some a => match a.airport with
    | none => .error .keyError
    | some x => .ok x

/-- The height of the obstacle, aviary/mission/energy_state/phases/detailed_landing_phases.py:589-592. -/
def obstacleHeight : Option Av → Except Err ℚ
  | none => .error .attributeError
  | some a => match a.obstacle with
    | none => .error .keyError
    | some none => .error .typeError
    | some (some x) => .ok x

/-- `add_state`, aviary/mission/energy_state/phases/detailed_landing_phases.py:215-259. -/
structure State where
  var : Var
  fixI : Bool
  fixF : Bool
  lower : Option ℚ
  upper : Option ℚ
  ref : ℚ
  deriving DecidableEq, Repr

/-- Controls, aviary/mission/energy_state/phases/detailed_landing_phases.py:251-280; the throttle of a phase has no name among the linked
variables. -/
inductive Ctl
  | fpa | throttle | aoa
  deriving DecidableEq, Repr

/-- `add_control`, aviary/mission/energy_state/phases/detailed_landing_phases.py:251-280. -/
structure Control where
  var : Ctl
  opt : Bool
  poly : Bool
  fixI : Bool
  fixF : Bool
  lower : Option ℚ
  upper : Option ℚ
  deriving DecidableEq, Repr

/-- A phase as it is built, aviary/mission/energy_state/phases/detailed_landing_phases.py:198-304. -/
structure Phase where
  fixTime : Bool
  maxDuration : ℚ
  states : List State
  controls : List Control
  /-- the angle of attack as a parameter -/
  aoaParam : Option ℚ
  /-- the altitude asked for at the beginning -/
  initialAltitude : Option ℚ
  /-- no change of the angle of attack beyond the flare at the end -/
  netAlphaRate : Bool
  deriving DecidableEq, Repr

/-- The state of the mass, aviary/mission/energy_state/phases/detailed_landing_phases.py:248-259, 553-563, 812-822, 1056-1066, 1262-1272. -/
def massState (fixI : Bool) : State := ⟨.mass, fixI, false, some 0, none, 50000⟩

/-- A throttle which is not optimized, aviary/mission/energy_state/phases/detailed_landing_phases.py:261-266, 565-570, 1068-1073, 1274-1279. -/
def fixedThrottle : Control := ⟨.throttle, false, false, false, false, none, none⟩

/-- `LandingApproachToMicP3.build_phase`, aviary/mission/energy_state/phases/detailed_landing_phases.py:179-304. -/
def buildApproach (o : Dict String ℚ) (av : Option Av) : Except Err Phase := do
  let maxDuration ← opt o "max_duration"
  let _ ← opt o "time_duration_ref"
  let _ ← opt o "time_initial_ref"
  let distanceMax ← opt o "distance_max"
  let altitudeRef ← opt o "altitude_ref"
  let maxVelocity ← opt o "max_velocity"
  let lower ← opt o "lower_angle_of_attack"
  let upper ← opt o "upper_angle_of_attack"
  let _ ← opt o "angle_of_attack_ref"
  let initialHeight ← opt o "initial_height"
  let a ← airport av
  pure { fixTime := false, maxDuration
         states := [⟨.distance, false, false, none, some 0, distanceMax⟩, ⟨.altitude, false, false, none, none, altitudeRef⟩,
           ⟨.velocity, false, false, some 0, none, maxVelocity⟩, massState true]
         controls := [⟨.fpa, false, false, true, false, none, none⟩, fixedThrottle,
           ⟨.aoa, true, false, false, false, some lower, some upper⟩]
         aoaParam := none, initialAltitude := some (initialHeight + a), netAlphaRate := false }

/-- `set_state_options(v, fix_final=True)`, aviary/mission/energy_state/phases/detailed_landing_phases.py:415-416. -/
def fixFinal (v : Var) (s : State) : State := if s.var = v then { s with fixF := true } else s

/-- `set_state_options(v, fix_initial=False)`, aviary/mission/energy_state/phases/detailed_landing_phases.py:417. -/
def freeInitial (v : Var) (s : State) : State := if s.var = v then { s with fixI := false } else s

/-- `LandingMicP3ToObstacle.build_phase`, aviary/mission/energy_state/phases/detailed_landing_phases.py:393-419. -/
def buildMicP3 (o : Dict String ℚ) (av : Option Av) : Except Err Phase := do
  let p ← buildApproach o av
  pure { p with states := ((p.states.map (fixFinal .distance)).map (fixFinal .velocity)).map (freeInitial .mass) }

/-- `LandingObstacleToFlare.build_phase`, aviary/mission/energy_state/phases/detailed_landing_phases.py:506-613. -/
def buildObstacle (o : Dict String ℚ) (av : Option Av) : Except Err Phase := do
  let maxDuration ← opt o "max_duration"
  let distanceMax ← opt o "distance_max"
  let altitudeRef ← opt o "altitude_ref"
  let maxVelocity ← opt o "max_velocity"
  let h ← obstacleHeight av
  let a ← airport av
  pure { fixTime := true, maxDuration
         states := [⟨.distance, true, false, some 0, none, distanceMax⟩, ⟨.altitude, false, false, some 0, none, altitudeRef⟩,
           ⟨.velocity, true, false, some 0, none, maxVelocity⟩, massState false]
         controls := [⟨.fpa, false, false, false, false, none, none⟩, fixedThrottle, ⟨.aoa, false, false, false, false, none, none⟩]
         aoaParam := none, initialAltitude := some (h + a), netAlphaRate := false }

/-- `LandingFlareToTouchdown.build_phase`, aviary/mission/energy_state/phases/detailed_landing_phases.py:758-882. -/
def buildFlare (o : Dict String ℚ) : Except Err Phase := do
  let maxDuration ← opt o "max_duration"
  let _ ← opt o "time_duration_ref"
  let _ ← opt o "time_initial_ref"
  let distanceMax ← opt o "distance_max"
  let altitudeRef ← opt o "altitude_ref"
  let maxVelocity ← opt o "max_velocity"
  let lower ← opt o "lower_angle_of_attack"
  let upper ← opt o "upper_angle_of_attack"
  let _ ← opt o "angle_of_attack_ref"
  pure { fixTime := false, maxDuration
         states := [⟨.distance, false, false, some 0, none, distanceMax⟩, ⟨.altitude, false, true, some 0, none, altitudeRef⟩,
           ⟨.velocity, false, false, some 0, none, maxVelocity⟩, massState false]
         controls := [⟨.fpa, false, false, false, false, none, none⟩, ⟨.throttle, true, false, false, false, some 0, some (1 / 5)⟩,
           ⟨.aoa, true, true, false, false, some lower, some upper⟩]
         aoaParam := none, initialAltitude := none, netAlphaRate := true }

/-- `LandingTouchdownToNoseDown.build_phase`, aviary/mission/energy_state/phases/detailed_landing_phases.py:1006-1103. -/
def buildTouchdown (o : Dict String ℚ) : Except Err Phase := do
  let maxDuration ← opt o "max_duration"
  let _ ← opt o "time_duration_ref"
  let _ ← opt o "time_initial_ref"
  let distanceMax ← opt o "distance_max"
  let maxVelocity ← opt o "max_velocity"
  let maxAlpha ← opt o "max_angle_of_attack"
  pure { fixTime := false, maxDuration
         states := [⟨.distance, false, false, some 0, none, distanceMax⟩, ⟨.velocity, false, false, some 0, none, maxVelocity⟩,
           massState false]
         controls := [fixedThrottle, ⟨.aoa, true, true, false, true, some 0, some maxAlpha⟩]
         aoaParam := none, initialAltitude := none, netAlphaRate := false }

/-- `LandingNoseDownToStop.build_phase`, aviary/mission/energy_state/phases/detailed_landing_phases.py:1208-1294. -/
def buildStop (o : Dict String ℚ) : Except Err Phase := do
  let maxDuration ← opt o "max_duration"
  let _ ← opt o "time_duration_ref"
  let _ ← opt o "time_initial_ref"
  let distanceMax ← opt o "distance_max"
  let maxVelocity ← opt o "max_velocity"
  pure { fixTime := false, maxDuration
         states := [⟨.distance, false, false, some 0, none, distanceMax⟩, ⟨.velocity, false, true, some 0, none, maxVelocity⟩,
           massState false]
         controls := [fixedThrottle]
         aoaParam := some 0, initialAltitude := none, netAlphaRate := false }

/-- Which `build_phase` is called, aviary/mission/energy_state/phases/detailed_landing_phases.py:179-1294. -/
def buildWith (k : LKind) (o : Dict String ℚ) (av : Option Av) : Except Err Phase := match k with
  | .approach => buildApproach o av
  | .micP3 => buildMicP3 o av
  | .obstacle => buildObstacle o av
  | .flare => buildFlare o
  | .touchdown => buildTouchdown o
  | .stop => buildStop o

/-- A builder with the options of the user, and its phase, aviary/mission/energy_state/phases/detailed_landing_phases.py:179-1294. -/
def build (k : LKind) (user : List (String × ℚ)) (av : Option Av) : Except Err Phase := do
  let o ← setAll (declared k) user
  buildWith k o av

/-- `make_default_transcription`: numbers of segments and orders,
aviary/mission/energy_state/phases/detailed_landing_phases.py:306-310, 615-619, 884-888, 1105-1109, 1296-1300. -/
def transcription : LKind → ℕ × ℕ
  | .approach | .micP3 | .obstacle | .flare => (5, 3)
  | .touchdown | .stop => (3, 3)

/-- `_extra_ode_init_kwargs`: whether the aircraft is in the air, and whether the brakes are used,
aviary/mission/energy_state/phases/detailed_landing_phases.py:312-314, 621-623, 890-892, 1111-1113, 1302-1304. The ODE of the flare takes
neither. -/
def odeKwargs : LKind → Option (Bool × Bool)
  | .approach | .micP3 | .obstacle => some (true, false)
  | .flare => none
  | .touchdown => some (false, false)
  | .stop => some (false, true)

end Verif.LandingPhases
