import Verif.Lemmas.VecDeriv
import Mathlib.Analysis.SpecialFunctions.Trigonometric.Arctan

/-! # Components with one entry per engine type (FLOPS-based mass and geometry)

Inputs that have one entry per engine type are functions on `Fin n`, with `n` the number of types,
`num i` the number of engines of type `i` (`Aircraft.Engine.NUM_ENGINES`).  Numbers are real
numbers.  `GRAV_ENGLISH_LBM` is 1 (aviary/constants.py:41) and is left out of the equations. -/

namespace Verif.EngineTypes
open Real

variable {n : ℕ}

/-! ## aviary/subsystems/mass/flops_based/distributed_prop.py -/

/-- `distributed_engine_count_factor`, aviary/subsystems/mass/flops_based/distributed_prop.py:6-20. -/
noncomputable def engineCountFactor (total : ℕ) : ℝ :=
  if total > 4 then 4 + 2 * arctan (((total : ℝ) - 4) / 3) else total

/-- `distributed_thrust_factor`, aviary/subsystems/mass/flops_based/distributed_prop.py:23-35. -/
noncomputable def thrustFactor (maxThrust : ℝ) (total : ℕ) : ℝ :=
  maxThrust / engineCountFactor total

/-- `sum(num_eng)`. Part of the model of aviary/subsystems/mass/flops_based/distributed_prop.py:52-55. -/
def total (num : Fin n → ℕ) : ℕ := ∑ i, num i

/-- `diam_avg` of `distributed_nacelle_diam_factor`, aviary/subsystems/mass/flops_based/distributed_prop.py:52-55. -/
noncomputable def avgDiam (num : Fin n → ℕ) (diam : Fin n → ℝ) : ℝ :=
  (∑ i, diam i * num i) / total num

/-- `distributed_nacelle_diam_factor`, aviary/subsystems/mass/flops_based/distributed_prop.py:38-64, for arrays; `x**0.5` is written
as the square root. -/
noncomputable def diamFactor (num : Fin n → ℕ) (diam : Fin n → ℝ) : ℝ :=
  if total num > 4 then 1 / 2 * avgDiam num diam * √(total num) else avgDiam num diam

/-- Entry `i` of `distributed_nacelle_diam_factor_deriv`, aviary/subsystems/mass/flops_based/distributed_prop.py:67-86 (for at most
four engines the function returns the scalar 1, which numpy uses for every entry). -/
noncomputable def diamFactorDeriv (num : Fin n → ℕ) (i : Fin n) : ℝ :=
  if total num > 4 then num i * (1 / 2 * √(total num)) / total num else 1

/-- Entry of `nacelle_count_factor`, aviary/subsystems/mass/flops_based/distributed_prop.py:89-106. -/
noncomputable def nacelleCount (k : ℕ) : ℝ := k + (k % 2 : ℕ) * (1 / 2)

/-! ## aviary/subsystems/mass/flops_based/engine.py -/

/-- One entry of `calc_mass` of `EngineMass.compute`, aviary/subsystems/mass/flops_based/engine.py:48-65. -/
noncomputable def engineMass (scale : Bool) (ref refThrust thrust p : ℝ) : ℝ :=
  if scale = true ∧ p ≥ 3 / 10 then ref * (thrust / refThrust) ^ p
  else if scale = true ∧ p < 3 / 10 then ref + (thrust - refThrust) * p
  else ref

/-- `TOTAL_ENGINE_MASS`, aviary/subsystems/mass/flops_based/engine.py:70. -/
noncomputable def totalEngineMass (num : Fin n → ℕ) (scale : Fin n → Bool)
    (ref refThrust thrust p : Fin n → ℝ) : ℝ :=
  ∑ i, engineMass (scale i) (ref i) (refThrust i) (thrust i) (p i) * num i

/-- Entry of `ADDITIONAL_MASS`, aviary/subsystems/mass/flops_based/engine.py:67-71. -/
noncomputable def additionalMass (fraction : ℝ) (scale : Bool) (ref refThrust thrust p : ℝ) : ℝ :=
  fraction * engineMass scale ref refThrust thrust p

/-- `thrust_deriv`, aviary/subsystems/mass/flops_based/engine.py:100-110. -/
noncomputable def thrustDeriv (scale : Bool) (ref refThrust thrust p : ℝ) : ℝ :=
  if scale = true ∧ p ≥ 3 / 10 then p * (ref * (thrust / refThrust) ^ p) / thrust
  else if scale = true ∧ p < 3 / 10 then p
  else 0

/-- `scale_deriv`, aviary/subsystems/mass/flops_based/engine.py:101-114. -/
noncomputable def scaleDeriv (scale : Bool) (ref refThrust thrust p : ℝ) : ℝ :=
  if scale = true ∧ p ≥ 3 / 10 then
    ref * (thrust / refThrust) ^ p * log (thrust / refThrust)
  else if scale = true ∧ p < 3 / 10 then thrust - refThrust
  else 0

/-- `sls_deriv`, aviary/subsystems/mass/flops_based/engine.py:102-123. -/
noncomputable def slsDeriv (scale : Bool) (ref refThrust thrust p : ℝ) : ℝ :=
  if scale = true ∧ p ≥ 3 / 10 then -(p * ref * (thrust / refThrust) ^ p / refThrust)
  else if scale = true ∧ p < 3 / 10 then -p
  else 0

/-- `ref_mass_deriv`, aviary/subsystems/mass/flops_based/engine.py:99, 145. -/
noncomputable def refMassDeriv (scale : Bool) (refThrust thrust p : ℝ) : ℝ :=
  if scale = true ∧ p ≥ 3 / 10 then (thrust / refThrust) ^ p else 1

/-! ## aviary/subsystems/mass/flops_based/thrust_reverser.py, aviary/subsystems/mass/flops_based/misc_engine.py -/

/-- Entry of `thrust_reverser_mass`, aviary/subsystems/mass/flops_based/thrust_reverser.py:84. -/
noncomputable def reverserMass (k : ℕ) (thrust scaler : ℝ) : ℝ :=
  34 / 1000 * thrust * nacelleCount k * scaler

/-- `TOTAL_THRUST_REVERSERS_MASS`, aviary/subsystems/mass/flops_based/thrust_reverser.py:86. -/
noncomputable def totalReverserMass (num : Fin n → ℕ) (thrust scaler : Fin n → ℝ) : ℝ :=
  ∑ i, reverserMass (num i) (thrust i) (scaler i)

/-- Partial of a reverser mass and of the total by the scaler, aviary/subsystems/mass/flops_based/thrust_reverser.py:94-96, 101-104. -/
noncomputable def dReverserScaler (k : ℕ) (thrust : ℝ) : ℝ := 34 / 1000 * thrust * nacelleCount k

/-- Partial of a reverser mass and of the total by the thrust, aviary/subsystems/mass/flops_based/thrust_reverser.py:97-99, 105-107. -/
noncomputable def dReverserThrust (k : ℕ) (scaler : ℝ) : ℝ := 34 / 1000 * nacelleCount k * scaler

/-- `EngineMiscMass.compute`, aviary/subsystems/mass/flops_based/misc_engine.py:43-55. -/
noncomputable def miscMass (num : Fin n → ℕ) (addtl : Fin n → ℝ) (ctrl starter scaler : ℝ) : ℝ :=
  (starter + ∑ i, addtl i * num i + ctrl) * scaler

/-- Partial by the additional mass of type `i`, aviary/subsystems/mass/flops_based/misc_engine.py:73-75. -/
noncomputable def dMiscAddtl (num : Fin n → ℕ) (scaler : ℝ) (i : Fin n) : ℝ := scaler * num i

/-! ## aviary/subsystems/mass/flops_based/engine_pod.py -/

/-- Masses of the systems part of which is in the pods, aviary/subsystems/mass/flops_based/engine_pod.py:89-94. -/
structure Systems where
  start : ℝ
  ctrl : ℝ
  fsys : ℝ
  elec : ℝ
  hyd : ℝ
  inst : ℝ

/-- The factor of `engine_thrust_ratio`, aviary/subsystems/mass/flops_based/engine_pod.py:102 (`nac_fact`, :139). -/
noncomputable def Systems.inPods (s : Systems) : ℝ :=
  s.start + 25 / 100 * (s.ctrl + s.fsys) + 13 / 100 * (s.elec + s.hyd) + 11 / 100 * s.inst

/-- `engine_thrust_ratio`, aviary/subsystems/mass/flops_based/engine_pod.py:85. -/
noncomputable def thrustRatio (k : ℕ) (thrust totalThrust : ℝ) : ℝ := thrust * k / totalThrust

/-- Entry of `POD_MASS`, aviary/subsystems/mass/flops_based/engine_pod.py:98-115. -/
noncomputable def podMass (s : Systems) (totalThrust : ℝ) (k : ℕ)
    (mEng mThr mNac thrust : ℝ) : ℝ :=
  (k * mEng + mThr + thrustRatio k thrust totalThrust * s.inPods) / max 1 (k : ℝ)
    + mNac * k / max 1 (nacelleCount k)

/-- `fact1`, aviary/subsystems/mass/flops_based/engine_pod.py:136. -/
noncomputable def podFact1 (k : ℕ) : ℝ := 1 / max 1 (k : ℝ)

/-- `fact2`, aviary/subsystems/mass/flops_based/engine_pod.py:137. -/
noncomputable def podFact2 (k : ℕ) : ℝ := 1 / max 1 (nacelleCount k)

/-- Partials of an entry of `POD_MASS`, aviary/subsystems/mass/flops_based/engine_pod.py:141-167: by the engine mass, the reverser mass,
the starter, control, instrument, electrical, hydraulics and fuel system mass, the nacelle mass, the
thrust and the total thrust. -/
noncomputable def dPodEngine : ℝ := 1
/-- aviary/subsystems/mass/flops_based/engine_pod.py:143 -/
noncomputable def dPodReverser (k : ℕ) : ℝ := podFact1 k
/-- aviary/subsystems/mass/flops_based/engine_pod.py:145 -/
noncomputable def dPodStart (k : ℕ) (thrust totalThrust : ℝ) : ℝ :=
  podFact1 k * thrustRatio k thrust totalThrust
/-- aviary/subsystems/mass/flops_based/engine_pod.py:147-149 -/
noncomputable def dPodCtrl (k : ℕ) (thrust totalThrust : ℝ) : ℝ :=
  25 / 100 * podFact1 k * thrustRatio k thrust totalThrust
/-- aviary/subsystems/mass/flops_based/engine_pod.py:151 -/
noncomputable def dPodInst (k : ℕ) (thrust totalThrust : ℝ) : ℝ :=
  11 / 100 * podFact1 k * thrustRatio k thrust totalThrust
/-- aviary/subsystems/mass/flops_based/engine_pod.py:153 -/
noncomputable def dPodElec (k : ℕ) (thrust totalThrust : ℝ) : ℝ :=
  13 / 100 * podFact1 k * thrustRatio k thrust totalThrust
/-- aviary/subsystems/mass/flops_based/engine_pod.py:155 -/
noncomputable def dPodHyd (k : ℕ) (thrust totalThrust : ℝ) : ℝ :=
  13 / 100 * podFact1 k * thrustRatio k thrust totalThrust
/-- aviary/subsystems/mass/flops_based/engine_pod.py:157 -/
noncomputable def dPodFsys (k : ℕ) (thrust totalThrust : ℝ) : ℝ :=
  25 / 100 * podFact1 k * thrustRatio k thrust totalThrust
/-- aviary/subsystems/mass/flops_based/engine_pod.py:159 -/
noncomputable def dPodNacelle (k : ℕ) : ℝ := podFact2 k * k
/-- aviary/subsystems/mass/flops_based/engine_pod.py:161-163 -/
noncomputable def dPodThrust (s : Systems) (k : ℕ) (totalThrust : ℝ) : ℝ :=
  k * s.inPods * podFact1 k / totalThrust
/-- aviary/subsystems/mass/flops_based/engine_pod.py:165-167 -/
noncomputable def dPodTotalThrust (s : Systems) (k : ℕ) (thrust totalThrust : ℝ) : ℝ :=
  -(k * thrust * s.inPods * podFact1 k) / totalThrust ^ 2

/-! ## aviary/subsystems/mass/flops_based/starter.py, aviary/subsystems/mass/flops_based/anti_icing.py -/

/-- `TransportStarterMass.compute`, aviary/subsystems/mass/flops_based/starter.py:38-56; `tot` is the option `TOTAL_NUM_ENGINES`. -/
noncomputable def starterMass (num : Fin n → ℕ) (tot : ℕ) (maxMach : ℝ)
    (diam ratio : Fin n → ℝ) : ℝ :=
  11 * engineCountFactor tot * maxMach ^ (32 / 100 : ℝ)
    * diamFactor num (fun i => diam i * √(ratio i)) ^ (16 / 10 : ℝ)

/-- Partial of the starter mass by the nacelle diameter of type `i`, aviary/subsystems/mass/flops_based/starter.py:58-84. -/
noncomputable def dStarterDiam (num : Fin n → ℕ) (tot : ℕ) (maxMach : ℝ)
    (diam ratio : Fin n → ℝ) (i : Fin n) : ℝ :=
  11 * (16 / 10) * engineCountFactor tot * maxMach ^ (32 / 100 : ℝ)
    * diamFactorDeriv num i ^ (16 / 10 : ℝ) * √(ratio i)
    * ((∑ j, diam j * √(ratio j) * num j) / tot) ^ (6 / 10 : ℝ)

/-- Partial of the starter mass by the scale factor of type `i`, aviary/subsystems/mass/flops_based/starter.py:86-90. -/
noncomputable def dStarterRatio (num : Fin n → ℕ) (tot : ℕ) (maxMach : ℝ)
    (diam ratio : Fin n → ℝ) (i : Fin n) : ℝ :=
  176 / 10 * engineCountFactor tot * maxMach ^ (32 / 100 : ℝ)
    * diamFactorDeriv num i ^ (16 / 10 : ℝ)
    * ((∑ j, diam j * √(ratio j) * num j) / tot) ^ (6 / 10 : ℝ)
    * (diam i * (1 / 2) / √(ratio i))

/-- `AntiIcingMass.compute`, aviary/subsystems/mass/flops_based/anti_icing.py:41-65; `span / cos(sweep)` is one argument `edge`. -/
noncomputable def antiIcingMass (num : Fin n → ℕ) (tot : ℕ) (edge width scaler : ℝ)
    (diam ratio : Fin n → ℝ) : ℝ :=
  (edge + 38 / 10 * diamFactor num (fun i => diam i * √(ratio i)) * engineCountFactor tot
    + 15 / 10 * width) * scaler

/-- Partial by the nacelle diameter of type `i`, aviary/subsystems/mass/flops_based/anti_icing.py:95-97. -/
noncomputable def dAntiIcingDiam (num : Fin n → ℕ) (tot : ℕ) (scaler : ℝ)
    (ratio : Fin n → ℝ) (i : Fin n) : ℝ :=
  38 / 10 * diamFactorDeriv num i * √(ratio i) * engineCountFactor tot * scaler

/-- Partial by the scale factor of type `i`, aviary/subsystems/mass/flops_based/anti_icing.py:105-115. -/
noncomputable def dAntiIcingRatio (num : Fin n → ℕ) (tot : ℕ) (scaler : ℝ)
    (diam ratio : Fin n → ℝ) (i : Fin n) : ℝ :=
  38 / 10 * diamFactorDeriv num i * diam i * (1 / 2) * √(ratio i) / ratio i
    * engineCountFactor tot * scaler

/-! ## aviary/subsystems/mass/flops_based/nacelle.py, aviary/subsystems/mass/flops_based/fuel_system.py -/

/-- `count_factor` of `NacelleMass`, aviary/subsystems/mass/flops_based/nacelle.py:72-75. -/
noncomputable def nacelleFactor (bwb : Bool) (k wing : ℕ) : ℝ :=
  if bwb = true then wing else nacelleCount k / k

/-- Entry of `Aircraft.Nacelle.MASS`, aviary/subsystems/mass/flops_based/nacelle.py:80-82. -/
noncomputable def nacelleMass (bwb : Bool) (k wing : ℕ) (diam length thrust scaler : ℝ) : ℝ :=
  1 / 4 * nacelleFactor bwb k wing * diam * length * thrust ^ (36 / 100 : ℝ) * scaler

/-- Nacelle term of the structure mass, aviary/subsystems/mass/flops_based/mass_summation.py:147. -/
noncomputable def nacelleSum (num : Fin n → ℕ) (mass : Fin n → ℝ) : ℝ := ∑ i, mass i * num i

/-- `TransportFuelSystemMass.compute`, aviary/subsystems/mass/flops_based/fuel_system.py:29-38. -/
noncomputable def fuelSystemMass (tot : ℕ) (maxMach scaler capacity : ℝ) : ℝ :=
  107 / 100 * capacity ^ (58 / 100 : ℝ) * engineCountFactor tot ^ (43 / 100 : ℝ)
    * maxMach ^ (34 / 100 : ℝ) * scaler

/-- Partial by the capacity: the number of engines stands in the place of the count factor,
aviary/subsystems/mass/flops_based/fuel_system.py:51-59. -/
noncomputable def dFuelSystemCapacity (tot : ℕ) (maxMach scaler capacity : ℝ) : ℝ :=
  6206 / 10000 * capacity ^ (-(42 / 100) : ℝ) * (tot : ℝ) ^ (43 / 100 : ℝ)
    * maxMach ^ (34 / 100 : ℝ) * scaler

/-! ## aviary/subsystems/geometry/flops_based/nacelle.py, aviary/subsystems/geometry/flops_based/landing_gear.py -/

/-- Entry of `NacelleWettedArea.compute`, aviary/subsystems/geometry/flops_based/nacelle.py:60-71. -/
noncomputable def nacelleArea (k : ℕ) (scaler diam length scale : ℝ) : ℝ :=
  if k ≥ 1 then scaler * (28 / 10) * diam * length * scale else 0

/-- Partials of an entry by length, diameter, scaler and engine scale, aviary/subsystems/geometry/flops_based/nacelle.py:91-100. -/
noncomputable def dAreaLength (k : ℕ) (scaler diam scale : ℝ) : ℝ :=
  if k ≥ 1 then scaler * (28 / 10 * diam * scale) else 0
/-- aviary/subsystems/geometry/flops_based/nacelle.py:98 -/
noncomputable def dAreaDiam (k : ℕ) (scaler length scale : ℝ) : ℝ :=
  if k ≥ 1 then scaler * (28 / 10 * length * scale) else 0
/-- aviary/subsystems/geometry/flops_based/nacelle.py:99 -/
noncomputable def dAreaScaler (k : ℕ) (diam length scale : ℝ) : ℝ :=
  if k ≥ 1 then 28 / 10 * diam * length * scale else 0
/-- aviary/subsystems/geometry/flops_based/nacelle.py:100 -/
noncomputable def dAreaScale (k : ℕ) (scaler diam length : ℝ) : ℝ :=
  if k ≥ 1 then scaler * (28 / 10 * diam * length) else 0

/-- `NacelleTotalWettedArea.compute`, aviary/subsystems/geometry/flops_based/nacelle.py:148-153. -/
noncomputable def totalNacelleArea (num : Fin n → ℕ) (area : Fin n → ℝ) : ℝ := ∑ i, num i * area i

/-- Inputs of `MainGearLength` that the first engine type decides,
aviary/subsystems/geometry/flops_based/landing_gear.py:76-104. -/
structure GearIn where
  fuselageLength : ℝ
  width : ℝ
  diam : ℝ
  location : ℝ
  dihedral : ℝ
  span : ℝ

/-- `distributed_nacelle_diam_factor` for numbers, aviary/subsystems/mass/flops_based/distributed_prop.py:56-64. -/
noncomputable def diamFactor1 (k : ℕ) (d : ℝ) : ℝ :=
  if k > 4 then 1 / 2 * d * √k else d

/-- `distributed_nacelle_diam_factor_deriv` for a number, aviary/subsystems/mass/flops_based/distributed_prop.py:79-86. -/
noncomputable def diamFactorDeriv1 (k : ℕ) : ℝ := if k > 4 then k * (1 / 2 * √k) / k else 1

/-- `yee`, aviary/subsystems/geometry/flops_based/landing_gear.py:98-104; `y_eng_aft` is always 0. -/
noncomputable def engineY (g : GearIn) : ℝ :=
  if g.location < 1 then g.location * (6 * g.span) else g.location

/-- `cmlg` before the lower bound, aviary/subsystems/geometry/flops_based/landing_gear.py:85-109. -/
noncomputable def gearRaw (k wing : ℕ) (g : GearIn) : ℝ :=
  if wing > 0 then
    12 * diamFactor1 k g.diam
      + (26 / 100 - tan (g.dihedral * (π / 180))) * (engineY g - g.width * 6)
  else 0

/-- `MainGearLength.compute`, aviary/subsystems/geometry/flops_based/landing_gear.py:76-114. -/
noncomputable def mainGear (k wing : ℕ) (g : GearIn) : ℝ :=
  if gearRaw k wing g < 12 then 75 / 100 * g.fuselageLength else gearRaw k wing g

/-- Partial by the length of the fuselage, aviary/subsystems/geometry/flops_based/landing_gear.py:164, 181. -/
noncomputable def dGearLength (k wing : ℕ) (g : GearIn) : ℝ :=
  if gearRaw k wing g < 12 then 75 / 100 else 0

/-- Partial by the width, aviary/subsystems/geometry/flops_based/landing_gear.py:158, 166, 183-185. -/
noncomputable def dGearWidth (k wing : ℕ) (g : GearIn) : ℝ :=
  if gearRaw k wing g < 12 then 0 else (tan (g.dihedral * (π / 180)) - 26 / 100) * 6

/-- Partial by the diameter, aviary/subsystems/geometry/flops_based/landing_gear.py:155, 168, 187-189. -/
noncomputable def dGearDiam (k wing : ℕ) (g : GearIn) : ℝ :=
  if gearRaw k wing g < 12 then 0 else 12 * diamFactorDeriv1 k

/-- Partial by the engine location, aviary/subsystems/geometry/flops_based/landing_gear.py:146-149, 157, 191-193. -/
noncomputable def dGearLocation (k wing : ℕ) (g : GearIn) : ℝ :=
  if gearRaw k wing g < 12 then 0
  else (26 / 100 - tan (g.dihedral * (π / 180))) * (if g.location < 1 then 6 * g.span else 1)

/-- Partial by the dihedral, aviary/subsystems/geometry/flops_based/landing_gear.py:127, 156, 195-197. -/
noncomputable def dGearDihedral (k wing : ℕ) (g : GearIn) : ℝ :=
  if gearRaw k wing g < 12 then 0
  else -(engineY g - g.width * 6) * (π / 180 / cos (g.dihedral * (π / 180)) ^ 2)

/-- Partial by the span, aviary/subsystems/geometry/flops_based/landing_gear.py:147-150, 199-201: `dyee_dspan` stays 1 when the location
is not normalised. -/
noncomputable def dGearSpan (k wing : ℕ) (g : GearIn) : ℝ :=
  if gearRaw k wing g < 12 then 0
  else (26 / 100 - tan (g.dihedral * (π / 180))) * (if g.location < 1 then 6 * g.location else 1)

end Verif.EngineTypes
