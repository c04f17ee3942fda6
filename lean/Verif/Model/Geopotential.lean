import Mathlib.Analysis.SpecialFunctions.Pow.Real

/-!
# Geopotential to geometric altitude

`convert_geopotential_altitude`, aviary/subsystems/propulsion/utils.py:81-133, for one altitude. Real numbers replace
floats. The `while` loop is given a number of passes; running out of passes is `none`.
-/

namespace Verif.Geo
open Real

/-- aviary/constants.py:23-26, metres. -/
noncomputable def radius : ℝ := 6371009
/-- aviary/constants.py:5-8 -/
noncomputable def g0 : ℝ := 9.80665
/-- aviary/subsystems/propulsion/utils.py:107 -/
noncomputable def cm1 : ℝ := 0.9985
/-- aviary/subsystems/propulsion/utils.py:108 -/
noncomputable def oc2 : ℝ := 26.76566e-10
/-- aviary/subsystems/propulsion/utils.py:109 -/
noncomputable def gns : ℝ := 9.823693

/-- aviary/subsystems/propulsion/utils.py:120 -/
noncomputable def gn (z : ℝ) : ℝ := gns * (radius / (radius + z)) ^ (cm1 + 1)

/-- aviary/subsystems/propulsion/utils.py:119-123: geopotential altitude of the geometric altitude `z` (metres). -/
noncomputable def geopotential (z : ℝ) : ℝ :=
  let R := radius + z
  (R * gn z * ((R / radius) ^ cm1 - 1) / cm1 - z * (R - z / 2) * oc2) / g0

/-- aviary/subsystems/propulsion/utils.py:114 -/
noncomputable def start (ft : ℝ) : ℝ := (ft + 4.37 * 10 ^ (-8 : ℤ) * ft ^ (2.0085 : ℝ)) * 0.3048

/-- aviary/subsystems/propulsion/utils.py:118-126: at most `n` passes of the loop from `z`, with `ho` the wanted geopotential altitude in metres. The
first pass always runs, later ones while the last change exceeds one metre. -/
noncomputable def loop (ho : ℝ) : ℕ → ℝ → Option ℝ
  | 0, _ => none
  | n + 1, z =>
    let dh := ho - geopotential z
    if 1 < |dh| then loop ho n (z + dh) else some (z + dh)

/-- `Err`: part of the model of aviary/subsystems/propulsion/utils.py:111-129. -/
inductive Err
  /-- A negative number to the power 2.0085: a complex number for a python float, `nan` for a numpy one. -/
  | notReal
  /-- The passes are used up. -/
  | running
  deriving DecidableEq

/-- aviary/subsystems/propulsion/utils.py:111-129, geometric altitude in feet, with at most `n` passes. -/
noncomputable def convert (n : ℕ) (ft : ℝ) : Except Err ℝ :=
  if ft < 0 then .error .notReal
  else match loop (ft * 0.3048) n (start ft) with
    | some z => .ok (z / 0.3048)
    | none => .error .running

end Verif.Geo
