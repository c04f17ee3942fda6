import Verif.Lemmas.CompDeriv

/-!
# Cabin masses of the GASP mass subsystem

`aviary/subsystems/mass/gasp_based/furnishings.py`, `aviary/subsystems/mass/gasp_based/oxygen_system.py` and `aviary/subsystems/mass/gasp_based/passenger_service.py` in `aviary/subsystems/mass/gasp_based`. Real numbers
replace floats, the factor `GRAV_ENGLISH_LBM = 1` is left out. Reading a local variable that no branch has assigned is the
error `unbound`.
-/

namespace Verif.Cabin
open Real

/-- `Err`: part of the model of aviary/subsystems/mass/gasp_based/furnishings.py:130-134. -/
inductive Err
  /-- `UnboundLocalError` -/
  | unbound
  deriving DecidableEq

/-- aviary/subsystems/mass/gasp_based/furnishings.py:11-26 -/
def attendants (pax : ℕ) : ℕ :=
  if 251 ≤ pax then 6 else if 201 ≤ pax then 5 else if 151 ≤ pax then 4 else if 101 ≤ pax then 3
  else if 51 ≤ pax then 2 else if 20 ≤ pax then 1 else 0

/-- aviary/subsystems/mass/gasp_based/furnishings.py:29-38; `jet` is `engine_type is GASPEngineType.TURBOJET`. -/
def pilots (pax : ℕ) (jet : Bool) : ℕ :=
  if 351 ≤ pax then 3 else if jet ∧ 5 < pax then 2 else if 9 < pax then 2 else 1

/-- aviary/subsystems/mass/gasp_based/furnishings.py:41-56; the same table is in aviary/subsystems/mass/gasp_based/passenger_service.py. -/
def lavatories (pax : ℕ) : ℕ :=
  if 251 ≤ pax then 6 else if 201 ≤ pax then 5 else if 151 ≤ pax then 4 else if 101 ≤ pax then 3
  else if 51 ≤ pax then 2 else if 25 < pax then 1 else 0

/-- Options of the component. Part of the model of aviary/subsystems/mass/gasp_based/furnishings.py:72-90. -/
structure Opts where
  pax : ℕ
  empirical : Bool
  jet : Bool

/-- aviary/subsystems/mass/gasp_based/furnishings.py:72-90 (smooth) and 109-128 (not smooth): at least 50 passengers. -/
noncomputable def large (o : Opts) (len w k a : ℝ) : ℝ :=
  (if o.empirical then k * o.pax else 118.4 * o.pax - 4190) + pilots o.pax o.jet * (1 + w / 12) * 90
    + attendants o.pax * 30 + lavatories o.pax * 240 + 0.5 * o.pax * 12 + 1.5 * (0.75 * len) * w * π / 2 + 0.5 * a

/-- aviary/subsystems/mass/gasp_based/furnishings.py:130-134: mass per passenger of small cabins, not smooth. `CPX_lin` is computed and not used. -/
noncomputable def perPax (w : ℝ) : Except Err ℝ :=
  if w ≤ 5.667 then .ok 28 else if 8.9 < w then .ok 62 else .error .unbound

/-- aviary/subsystems/mass/gasp_based/furnishings.py:104-136, not smooth, before the lower bound. -/
noncomputable def hardRaw (o : Opts) (g len w k a : ℝ) : Except Err ℝ :=
  if g ≤ 10000 then .ok (0.065 * g - 59)
  else if 50 ≤ o.pax then .ok (large o len w k a)
  else do return (← perPax w) * o.pax + 310

/-- aviary/subsystems/mass/gasp_based/furnishings.py:104-139, not smooth. -/
noncomputable def hard (o : Opts) (g len w k a : ℝ) : Except Err ℝ := do
  return max (← hardRaw o g len w k a) 30

/-- Partials with respect to cabin width, gross mass, length, scaler, cabin area.
Part of the model of aviary/subsystems/mass/gasp_based/furnishings.py:209-282. -/
structure Grad where
  w : ℝ
  g : ℝ
  len : ℝ
  k : ℝ
  a : ℝ

/-- aviary/subsystems/mass/gasp_based/furnishings.py:262-268: `dCPX_dcabin_width`. -/
noncomputable def dPerPax (w : ℝ) : Except Err ℝ :=
  if w ≤ 5.667 ∨ 8.9 < w then .ok 0 else .error .unbound

/-- aviary/subsystems/mass/gasp_based/furnishings.py:209-282, not smooth. -/
noncomputable def hardGrad (o : Opts) (g len w k a : ℝ) : Except Err Grad := do
  let wt ← hardRaw o g len w k a
  let d : Grad ←
    if g ≤ 10000 then pure ⟨0, 0.065, 0, 0, 0⟩
    else if 50 ≤ o.pax then
      pure ⟨pilots o.pax o.jet * (1 / 12) * 90 + 1.5 * 0.75 * len * π / 2, 0, 1.5 * 0.75 * w * π / 2,
        if o.empirical then o.pax else 0, 0.5⟩
    else do pure ⟨o.pax * (← dPerPax w), 0, 0, 0, 0⟩
  return if wt < 30 then ⟨0, 0, 0, 0, 0⟩ else d

/-- aviary/subsystems/mass/gasp_based/furnishings.py:91-97: mass per passenger of small cabins, smooth. -/
noncomputable def perPaxSmooth (w : ℝ) : ℝ :=
  let l := 28 + 10.516 * (w - 5.667)
  28 * sigX (l / 28) 1 (-0.01) + l * sigX (l / 28) 1 0.01 * sigX (l / 62) 1 (-0.01) + 62 * sigX (l / 62) 1 0.01

/-- aviary/subsystems/mass/gasp_based/furnishings.py:66-98: `furnishing_wt_1` and `furnishing_wt_2` of the smooth branch. -/
noncomputable def wt1 (g : ℝ) : ℝ := 0.065 * g - 59

/-- `wt2`: part of the model of aviary/subsystems/mass/gasp_based/furnishings.py:99-100. -/
noncomputable def wt2 (o : Opts) (len w k a : ℝ) : ℝ :=
  if 50 ≤ o.pax then large o len w k a else perPaxSmooth w * o.pax + 310

/-- aviary/subsystems/mass/gasp_based/furnishings.py:99-100, before `smooth_max`: the option `smooth`, `True` here, is the factor of the second mass,
so the factor is one. -/
noncomputable def softRaw (o : Opts) (g len w k a : ℝ) : ℝ :=
  let s := sigX g 10000 0.01
  (1 - s) * wt1 g + 1 * wt2 o len w k a

/-- aviary/subsystems/mass/gasp_based/furnishings.py:186-207, before `smooth_max`: partials with respect to length and cabin area. -/
noncomputable def softGradLen (o : Opts) (g w : ℝ) : ℝ :=
  let s := sigX g 10000 0.01
  (1 - s) * 0 + s * (if 50 ≤ o.pax then 1.5 * 0.75 * w * π / 2 else 0)

/-- `softGradArea`: part of the model of aviary/subsystems/mass/gasp_based/furnishings.py:186-207. -/
noncomputable def softGradArea (o : Opts) (g : ℝ) : ℝ :=
  let s := sigX g 10000 0.01
  (1 - s) * 0 + s * (if 50 ≤ o.pax then 0.5 else 0)

/-! ## Oxygen system -/

/-- aviary/subsystems/mass/gasp_based/oxygen_system.py:35-50, not smooth. -/
noncomputable def oxygen (pax : ℕ) (g : ℝ) : ℝ :=
  if pax < 9 then (if 3000 < g then 3 else 0) else if pax < 20 then 10 else if pax < 75 then 20 else 50

/-- aviary/subsystems/mass/gasp_based/oxygen_system.py:58-71, not smooth. -/
noncomputable def oxygenGrad (pax : ℕ) (g : ℝ) : Except Err ℝ :=
  if pax < 9 then (if 3000 < g then .ok 0 else .error .unbound) else .ok 0

/-! ## Passenger service -/

/-- aviary/subsystems/mass/gasp_based/passenger_service.py:34-68, `compute`; `s`, `wa`, `c` are service, water and catering mass per passenger. -/
noncomputable def service (pax : ℕ) (s wa c : ℝ) : ℝ :=
  (if 9 < pax then s * pax + 16 * lavatories pax else 0) + (if 19 < pax then wa * pax else 0)
    + (if 19 < pax then c * pax else 0)

/-- aviary/subsystems/mass/gasp_based/passenger_service.py:70-103, `compute_partials`: the three entries are equal. -/
noncomputable def serviceGrad (pax : ℕ) : ℝ := if 19 < pax then pax else 0

end Verif.Cabin
