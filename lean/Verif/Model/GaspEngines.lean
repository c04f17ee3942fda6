import Verif.Lemmas.VecDeriv

/-! # GASP components with one entry per engine type

Inputs with one entry per engine type are functions on `Fin n`.  Numbers are real numbers.
`GRAV_ENGLISH_LBM` is 1 (aviary/constants.py:41) and is left out of the equations. -/

namespace Verif.GaspEngines
open Real

variable {n m : ℕ}

/-! ## aviary/subsystems/mass/gasp_based/engine.py -/

/-- `dry_wt_eng`, aviary/subsystems/mass/gasp_based/engine.py:97. -/
noncomputable def dryMass (spec thrust : ℝ) : ℝ := spec * thrust

/-- `TOTAL_ENGINE_MASS` of `TotalEngineMass`, aviary/subsystems/mass/gasp_based/engine.py:97-99. -/
noncomputable def totalEngineMass (num : Fin n → ℕ) (spec thrust : Fin n → ℝ) : ℝ :=
  ∑ i, dryMass (spec i) (thrust i) * num i

/-- Entry of `Nacelle.MASS`, aviary/subsystems/mass/gasp_based/engine.py:110, 114. -/
noncomputable def nacelleMass (scaler spec area : ℝ) : ℝ := scaler * spec * area

/-- Entry of `pylon_mass`, aviary/subsystems/mass/gasp_based/engine.py:111, 115. -/
noncomputable def pylonMass (factor engSpec thrust scaler nacSpec area : ℝ) : ℝ :=
  factor * (dryMass engSpec thrust + nacelleMass scaler nacSpec area) ^ (736 / 1000 : ℝ)

/-- The power that all partials of `pylon_mass` share, aviary/subsystems/mass/gasp_based/engine.py:130-155. -/
noncomputable def pylonPow (engSpec thrust scaler nacSpec area : ℝ) : ℝ :=
  (engSpec * thrust + scaler * nacSpec * area) ^ (-(264 / 1000) : ℝ)

/-- `dPW_dNWS`, aviary/subsystems/mass/gasp_based/engine.py:130-135: without the scaler. -/
noncomputable def dPylonNacSpec (factor engSpec thrust scaler nacSpec area : ℝ) : ℝ :=
  736 / 1000 * factor * pylonPow engSpec thrust scaler nacSpec area * area

/-- `dPW_dNSA`, aviary/subsystems/mass/gasp_based/engine.py:137-142: without the scaler. -/
noncomputable def dPylonArea (factor engSpec thrust scaler nacSpec area : ℝ) : ℝ :=
  736 / 1000 * factor * pylonPow engSpec thrust scaler nacSpec area * nacSpec

/-- `dPW_dPF`, aviary/subsystems/mass/gasp_based/engine.py:143. -/
noncomputable def dPylonFactor (engSpec thrust scaler nacSpec area : ℝ) : ℝ :=
  (engSpec * thrust + scaler * nacSpec * area) ^ (736 / 1000 : ℝ)

/-- `dPW_dEWS`, aviary/subsystems/mass/gasp_based/engine.py:144-149. -/
noncomputable def dPylonEngSpec (factor engSpec thrust scaler nacSpec area : ℝ) : ℝ :=
  736 / 1000 * factor * pylonPow engSpec thrust scaler nacSpec area * thrust

/-- `dPW_dSLST`, aviary/subsystems/mass/gasp_based/engine.py:150-155. -/
noncomputable def dPylonThrust (factor engSpec thrust scaler nacSpec area : ℝ) : ℝ :=
  factor * (736 / 1000) * pylonPow engSpec thrust scaler nacSpec area * engSpec

/-- Partial of `pylon_mass` by the nacelle mass scaler, aviary/subsystems/mass/gasp_based/engine.py:174-180. -/
noncomputable def dPylonScaler (factor engSpec thrust scaler nacSpec area : ℝ) : ℝ :=
  factor * (736 / 1000) * pylonPow engSpec thrust scaler nacSpec area * nacSpec * area

/-- Entry of `POD_MASS` of `EnginePodMass`, aviary/subsystems/mass/gasp_based/engine.py:232-238. -/
noncomputable def podMass (nacelle pylon : ℝ) : ℝ := nacelle + pylon

/-- `TOTAL_ENGINE_POD_MASS`, aviary/subsystems/mass/gasp_based/engine.py:241-242. -/
noncomputable def totalPodMass (num : Fin n → ℕ) (scaler nacelle pylon : Fin n → ℝ) : ℝ :=
  ∑ i, scaler i * podMass (nacelle i) (pylon i) * num i

/-- Entry of `ADDITIONAL_MASS` of `AdditionalEngineMass`, aviary/subsystems/mass/gasp_based/engine.py:307-317. -/
noncomputable def additionalMass (ck7 fraction spec thrust : ℝ) : ℝ :=
  ck7 * (fraction * dryMass spec thrust)

/-- `eng_comb_mass` of `WingMountEngineMass`, aviary/subsystems/mass/gasp_based/engine.py:463-476 (`aug` is 0 without a hybrid
system). -/
noncomputable def engCombMass (num : Fin n → ℕ) (ck5 spec thrust addtl : Fin n → ℝ) (aug : ℝ) : ℝ :=
  ∑ i, ck5 i * (dryMass (spec i) (thrust i) * num i) + ∑ i, addtl i * num i + aug

/-- `prop_mass_sum`, aviary/subsystems/mass/gasp_based/engine.py:478-480. -/
noncomputable def propMassSum (num : Fin n → ℕ) (prop : Fin n → ℝ) : ℝ := ∑ i, prop i * num i

/-- `span_frac_factor` of one location, aviary/subsystems/mass/gasp_based/engine.py:482. -/
noncomputable def spanFactor (y : ℝ) : ℝ := y / (y + 1 / 1000)

/-- `idx` when the loop reaches type `i`, aviary/subsystems/mass/gasp_based/engine.py:485-490. -/
def startIdx (num : Fin n → ℕ) (i : Fin n) : ℕ := ∑ j ∈ Finset.univ.filter (· < i), num j

/-- Location `l` lies in the slice `[idx : idx + num_engines[i]]` of type `i`, aviary/subsystems/mass/gasp_based/engine.py:488. -/
def inSlice (num : Fin n → ℕ) (i : Fin n) (l : Fin m) : Prop :=
  startIdx num i ≤ l.1 ∧ l.1 < startIdx num i + num i

instance (num : Fin n → ℕ) (i : Fin n) (l : Fin m) : Decidable (inSlice num i l) := by
  unfold inSlice; infer_instance

/-- `span_frac_factor_sum[i]`, aviary/subsystems/mass/gasp_based/engine.py:484-490: the sum over the slice; `loc` are the
`Engine.WING_LOCATIONS`, of which `setup` (:362-370) makes half as many as there are engines on the
wing, at least one. -/
noncomputable def spanSum (num : Fin n → ℕ) (loc : Fin m → ℝ) (i : Fin n) : ℝ :=
  ∑ l, if inSlice num i l then spanFactor (loc l) else 0

/-- Inputs of `WingMountEngineMass` for one engine type, aviary/subsystems/mass/gasp_based/engine.py:347-388. -/
structure EngIn where
  spec : ℝ
  thrust : ℝ
  addtl : ℝ
  pod : ℝ
  prop : ℝ

/-- Mass of one engine of the type on the wing, the bracket of aviary/subsystems/mass/gasp_based/engine.py:501 before the
multiplication by the number of engines. -/
noncomputable def EngIn.onWing (e : EngIn) (ck7 : ℝ) : ℝ :=
  dryMass e.spec e.thrust + e.addtl / ck7 + e.pod + e.prop

/-- `wing_mounted_mass`, aviary/subsystems/mass/gasp_based/engine.py:498-504. -/
noncomputable def wingMounted (num : Fin n → ℕ) (loc : Fin m → ℝ) (e : Fin n → EngIn)
    (ck7 gear gearLoc : ℝ) : ℝ :=
  ∑ i, spanSum num loc i * ((e i).onWing ck7 * num i) + gear * gearLoc / (gearLoc + 1 / 1000)

/-- `wing_mass_vec`, aviary/subsystems/mass/gasp_based/engine.py:532-542: the installation is `c_instl * dry_wt_eng` here. -/
noncomputable def wingMassVec (num : Fin n → ℕ) (c : Fin n → ℝ) (e : Fin n → EngIn) (i : Fin n) : ℝ :=
  (dryMass (e i).spec (e i).thrust + c i * dryMass (e i).spec (e i).thrust + (e i).pod
    + (e i).prop) * num i

/-- `wing_mass_deriv`, aviary/subsystems/mass/gasp_based/engine.py:538-546: a location gets the value of the type whose slice it is in;
the slices do not overlap. -/
noncomputable def wingMassDeriv (num : Fin n → ℕ) (c : Fin n → ℝ) (e : Fin n → EngIn) (l : Fin m) :
    ℝ := ∑ i, if inSlice num i l then wingMassVec num c e i else 0

/-- Partial by location `l`, aviary/subsystems/mass/gasp_based/engine.py:548-550. -/
noncomputable def dWingLocation (num : Fin n → ℕ) (c : Fin n → ℝ) (e : Fin n → EngIn)
    (loc : Fin m → ℝ) (l : Fin m) : ℝ :=
  1 / 1000 / (loc l + 1 / 1000) ^ 2 * wingMassDeriv num c e l

/-- Partial by the specific mass, aviary/subsystems/mass/gasp_based/engine.py:551-553. -/
noncomputable def dWingSpec (num : Fin n → ℕ) (loc : Fin m → ℝ) (e : Fin n → EngIn) (i : Fin n) : ℝ :=
  spanSum num loc i * (e i).thrust * num i
/-- Partial by the thrust, aviary/subsystems/mass/gasp_based/engine.py:554-556. -/
noncomputable def dWingThrust (num : Fin n → ℕ) (loc : Fin m → ℝ) (e : Fin n → EngIn) (i : Fin n) :
    ℝ := spanSum num loc i * (num i * (e i).spec)
/-- Partials by the propeller mass and the pod mass, aviary/subsystems/mass/gasp_based/engine.py:566-567. -/
noncomputable def dWingPod (num : Fin n → ℕ) (loc : Fin m → ℝ) (i : Fin n) : ℝ :=
  spanSum num loc i * num i
/-- Partial by the additional mass, aviary/subsystems/mass/gasp_based/engine.py:568-570. -/
noncomputable def dWingAddtl (num : Fin n → ℕ) (loc : Fin m → ℝ) (ck7 : ℝ) (i : Fin n) : ℝ :=
  spanSum num loc i / ck7 * num i
/-- Partial by the scaler of the miscellaneous mass, aviary/subsystems/mass/gasp_based/engine.py:571-573. -/
noncomputable def dWingCk7 (num : Fin n → ℕ) (loc : Fin m → ℝ) (e : Fin n → EngIn) (ck7 : ℝ) : ℝ :=
  ∑ i, -spanSum num loc i * (e i).addtl / ck7 ^ 2 * num i
/-- Partial by the mass of the main gear, aviary/subsystems/mass/gasp_based/engine.py:557-559. -/
noncomputable def dWingGear (gearLoc : ℝ) : ℝ := gearLoc / (gearLoc + 1 / 1000)
/-- Partial by the location of the main gear, aviary/subsystems/mass/gasp_based/engine.py:560-565. -/
noncomputable def dWingGearLoc (gear gearLoc : ℝ) : ℝ :=
  gear * ((gearLoc + 1 / 1000) - gearLoc) / (gearLoc + 1 / 1000) ^ 2

/-! ## aviary/subsystems/mass/gasp_based/engine_oil.py -/

/-- `GASPEngineType` as far as the component tells the members apart,
aviary/variable_info/enums.py:100-130 (`other` stands for the piston and rotary engines). -/
inductive EngType | turbojet | turboshaft | turboprop | other
  deriving DecidableEq

/-- Entry of `oil_per_eng_wt`, aviary/subsystems/mass/gasp_based/engine_oil.py:46-57. -/
noncomputable def oilPerEngine : EngType → ℝ → ℝ
  | .turbojet, t => 54 / 10000 * t + 12
  | .turboshaft, t => 214 / 10000 * t + 14
  | .turboprop, t => 214 / 10000 * t + 14
  | .other, _ => 0

/-- Entry of `doil_per_eng_wt_dFn_SLS`, aviary/subsystems/mass/gasp_based/engine_oil.py:72-81. -/
noncomputable def dOilPerEngine : EngType → ℝ
  | .turbojet => 54 / 10000
  | .turboshaft => 214 / 10000
  | .turboprop => 214 / 10000
  | .other => 0

/-- `TOTAL_ENGINE_OIL_MASS`, aviary/subsystems/mass/gasp_based/engine_oil.py:59-61. -/
noncomputable def oilMass (num : Fin n → ℕ) (ty : Fin n → EngType) (thrust : Fin n → ℝ) : ℝ :=
  ∑ i, oilPerEngine (ty i) (thrust i) * num i

end Verif.GaspEngines
