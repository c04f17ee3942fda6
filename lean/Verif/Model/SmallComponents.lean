import Mathlib.Analysis.SpecialFunctions.Pow.Deriv
import Mathlib.Analysis.SpecialFunctions.Sqrt
import Mathlib.Analysis.SpecialFunctions.Trigonometric.Deriv
import Mathlib.Algebra.BigOperators.Fin

/-!
# Components whose partials are constant, and the design point

Models components that have no translated counterpart: the design lift coefficient and Mach number, the wetted area of a
blended wing body, the length of cables, and sums.  Numbers are real.
-/

namespace Verif.SmallComponents

/-! ## Design lift coefficient and Mach number -/

/-- aviary/subsystems/aerodynamics/flops_based/premission_aero.py:53-55: thick wings. -/
noncomputable def clThick (AR CAM SW : ℝ) : ℝ :=
  (0.029 + 0.1843 * AR) * Real.cos (SW / 57.2958) * (1 + 1 / 10 * CAM) / Real.sqrt AR

/-- aviary/subsystems/aerodynamics/flops_based/premission_aero.py:58-59. -/
noncomputable def far (AR TC : ℝ) : ℝ := AR * TC ^ (1 / 3 : ℝ)

/-- aviary/subsystems/aerodynamics/flops_based/premission_aero.py:57-60: thin wings; `FAR**2.0` and `FAR**3.0` are powers. -/
noncomputable def clThin (AR TC : ℝ) : ℝ :=
  -0.06416 + 0.530389 * far AR TC + -0.214493 * far AR TC ^ 2 + 0.0376684 * far AR TC ^ 3

/-- aviary/subsystems/aerodynamics/flops_based/premission_aero.py:52-62: the design lift coefficient. -/
noncomputable def clDesign (AR CAM SW TC : ℝ) : ℝ := if TC > 0.065 then clThick AR CAM SW else clThin AR TC

/-- The interpolated tables, with their derivatives. Part of the model of
aviary/subsystems/aerodynamics/flops_based/premission_aero.py:65-77. -/
structure Tables where
  cm : ℝ → ℝ → ℝ
  am : ℝ → ℝ → ℝ
  hs : ℝ → ℝ → ℝ
  dcm : ℝ → ℝ → ℝ × ℝ
  dam : ℝ → ℝ → ℝ × ℝ
  dhs : ℝ → ℝ → ℝ × ℝ

/-- aviary/subsystems/aerodynamics/flops_based/premission_aero.py:69-72 (`ANS`). -/
noncomputable def ans (T : Tables) (tek CL t : ℝ) : ℝ := T.cm CL t * (2 - tek) + T.am CL t * (tek - 1)

/-- aviary/subsystems/aerodynamics/flops_based/premission_aero.py:65-77: the Mach number without sweep and aspect ratio. -/
noncomputable def mach2d (T : Tables) (tek vmax AR CAM SW TC : ℝ) : ℝ :=
  if TC > 0.065 ∨ vmax < 1 then Real.sqrt (ans T tek (clDesign AR CAM SW TC) (TC ^ (2 / 3 : ℝ)) + 1)
  else T.hs (clDesign AR CAM SW TC) TC

/-- aviary/subsystems/aerodynamics/flops_based/premission_aero.py:79-86: the design Mach number. -/
noncomputable def machDesign (T : Tables) (tek vmax AR CAM SW TC : ℝ) : ℝ :=
  mach2d T tek vmax AR CAM SW TC + 0.32 * (1 - Real.cos (SW / 57.2958)) + 0.144 / AR

/-- Four partials. Part of the model of aviary/subsystems/aerodynamics/flops_based/premission_aero.py:88-205. -/
structure Grad where
  AR : ℝ
  CAM : ℝ
  SW : ℝ
  TC : ℝ

/-- aviary/subsystems/aerodynamics/flops_based/premission_aero.py:94-128: partials of the design lift coefficient. -/
noncomputable def clGrad (AR CAM SW TC : ℝ) : Grad :=
  if TC > 0.065 then
    let fact1 := 0.029 + 0.1843 * AR
    let fact2 := Real.cos (SW / 57.2958)
    let fact3 := 1 + 1 / 10 * CAM
    let fact4 := 1 / Real.sqrt AR
    { AR := fact3 * fact2 * (0.1843 * fact4 - fact1 / (2 * AR ^ (1.5 : ℝ)))
      CAM := 1 / 10 * fact1 * fact2 * fact4
      SW := -fact1 * fact3 * Real.sin (SW / 57.2958) * fact4 / 57.2958
      TC := 0 }
  else
    let d := 0.530389 + 2 * -0.214493 * far AR TC + 3 * 0.0376684 * far AR TC ^ 2
    { AR := d * TC ^ (1 / 3 : ℝ)
      CAM := 0
      SW := 0
      TC := d * (1 / 3 * AR * TC ^ (1 / 3 - 1 : ℝ)) }

/-- aviary/subsystems/aerodynamics/flops_based/premission_aero.py:129-185: partials of the Mach number without sweep and
aspect ratio.  `self.dDESM2D` (line 168) is taken at the same point. -/
noncomputable def mach2dGrad (T : Tables) (tek vmax AR CAM SW TC : ℝ) : Grad :=
  let CL := clDesign AR CAM SW TC
  let g := clGrad AR CAM SW TC
  if TC > 0.065 ∨ vmax < 1 then
    let t := TC ^ (2 / 3 : ℝ)
    let dCL := (T.dcm CL t).1 * (2 - tek) + (T.dam CL t).1 * (tek - 1)
    let dt := (T.dcm CL t).2 * (2 - tek) + (T.dam CL t).2 * (tek - 1)
    let dA := 0.5 / Real.sqrt (ans T tek CL t + 1)
    { AR := dA * (dCL * g.AR + dt * 0)
      CAM := dA * (dCL * g.CAM + dt * 0)
      SW := dA * (dCL * g.SW + dt * 0)
      TC := dA * (dCL * g.TC + dt * (2 / 3 * TC ^ (-1 / 3 : ℝ))) }
  else
    { AR := (T.dhs CL TC).1 * g.AR
      CAM := (T.dhs CL TC).1 * g.CAM
      SW := (T.dhs CL TC).1 * g.SW
      TC := (T.dhs CL TC).2 + (T.dhs CL TC).1 * g.TC }

/-- aviary/subsystems/aerodynamics/flops_based/premission_aero.py:187-205: partials of the design Mach number. -/
noncomputable def machGrad (T : Tables) (tek vmax AR CAM SW TC : ℝ) : Grad :=
  let g := mach2dGrad T tek vmax AR CAM SW TC
  { AR := g.AR + -0.144 / AR ^ 2
    CAM := g.CAM
    SW := g.SW + 0.32 / 57.2958 * Real.sin (SW / 57.2958)
    TC := g.TC }

/-! ## Wetted area of a blended wing body -/

/-- aviary/subsystems/geometry/flops_based/wetted_area_total.py:604-608: a station outside the fuselage; fractions are of
the part of the semispan outside it. -/
noncomputable def station (width span x : ℝ) : ℝ :=
  if x ≤ 1 then x * ((span - width) / span) + width / span else x + width / 2

/-- aviary/subsystems/geometry/flops_based/wetted_area_total.py:590-612: the stations; `auto` is `root < 1`, which adds the
centre line and puts the next station at the side of the fuselage. -/
noncomputable def stations (auto : Bool) (width span : ℝ) (xs : List ℝ) : List ℝ :=
  if auto then 0 :: ((xs.map (station width span)).set 0 (width / 2)) else xs.map (station width span)

/-- aviary/subsystems/geometry/flops_based/wetted_area_total.py:621-624, 631-634: chords up to 5 are fractions of the
semispan. -/
noncomputable def chordFt (span c : ℝ) : ℝ := if c ≤ 5 then c * span / 2 else c

/-- aviary/subsystems/geometry/flops_based/wetted_area_total.py:625-628, 635-638: stations up to 1.1 are fractions of the
semispan. -/
noncomputable def stationFt (span y : ℝ) : ℝ := if y ≤ 1.1 then y * span / 2 else y

/-- A station in feet, its chord in feet and its thickness. Part of the model of
aviary/subsystems/geometry/flops_based/wetted_area_total.py:617-641. -/
structure Sect where
  y : ℝ
  c : ℝ
  tc : ℝ

/-- aviary/subsystems/geometry/flops_based/wetted_area_total.py:629-641: the loop. -/
noncomputable def wetLoop : ℝ → Sect → List Sect → ℝ
  | acc, _, [] => acc
  | acc, s, t :: rest => wetLoop (acc + (t.y - s.y) * (s.c + t.c) * (2 + 0.387 * ((s.tc + t.tc) / 2))) t rest

/-- The exceptions. Part of the model of aviary/subsystems/geometry/flops_based/wetted_area_total.py:586-621. -/
inductive Err
  | value | index
  deriving DecidableEq, Repr

/-- aviary/subsystems/geometry/flops_based/wetted_area_total.py:581-642 `BWBWingWettedArea.compute`; the inputs of chords and
thicknesses have one entry for each station, missing ones raise `IndexError`. -/
noncomputable def bwbWetted (auto : Bool) (width span : ℝ) (xs cs tcs : List ℝ) : Except Err ℝ :=
  if span ≤ 0 then .error .value
  else
    let ys := stations auto width span xs
    if cs.length < ys.length ∨ tcs.length < ys.length ∨ (auto = true ∧ xs = []) then .error .index
    else match List.zipWith (fun y ct => Sect.mk (stationFt span y) (chordFt span ct.1) ct.2) ys (List.zip cs tcs) with
      | [] => .error .index
      | s :: rest => .ok (wetLoop 0 s rest)

/-! ## Sums and constant factors -/

/-- aviary/subsystems/geometry/gasp_based/electric.py:40-47 `CableSize.compute` with the locations of half of the wing engines. -/
noncomputable def cable {n : ℕ} (loc : Fin n → ℝ) (span diam : ℝ) : ℝ := (∑ i, loc i) * span + 2 * diam

/-- aviary/subsystems/geometry/gasp_based/electric.py:29-31, 49-57: partials with respect to each location, the span, the
diameter. -/
noncomputable def cableGrad {n : ℕ} (loc : Fin n → ℝ) (span : ℝ) : (Fin n → ℝ) × ℝ × ℝ := (fun _ => span, ∑ i, loc i, 2)

/-- aviary/subsystems/mass/gasp_based/apu.py:20-26 `APUMass.compute` (`GRAV_ENGLISH_LBM` is 1). -/
noncomputable def apuMass (pax : ℝ) : ℝ := if pax > 35 then (26.2 * pax ^ (0.944 : ℝ) - 13.6 * pax) / 1 else 0

/-- aviary/subsystems/mass/gasp_based/control.py:290-301 `SumControlMass.compute`. -/
noncomputable def controlMass (increment cockpit stab wing : ℝ) : ℝ := (cockpit * 1 + wing * 1 + stab * 1 + increment * 1) / 1

/-- aviary/subsystems/mass/flops_based/furnishings.py:277-285 `AltFurnishingsGroupMass.compute`. -/
noncomputable def altFurnishings (base struct prop sys : ℝ) : ℝ := base + 0.01 * (struct + prop + sys)

/-- aviary/subsystems/geometry/flops_based/wetted_area_total.py:993-1001 `TotalWettedArea.compute`. -/
noncomputable def totalWetted (canard fuselage htail nacelle vtail wing : ℝ) : ℝ :=
  canard + fuselage + htail + nacelle + vtail + wing

/-- aviary/subsystems/geometry/flops_based/landing_gear.py:31-34 `NoseGearLength.compute`. -/
noncomputable def noseGear (main : ℝ) : ℝ := 0.7 * main

/-- aviary/subsystems/mass/mass_to_weight.py:37-38 `MassToWeight.compute` at each node. -/
noncomputable def massToWeight {n : ℕ} (mass : Fin n → ℝ) : Fin n → ℝ := fun i => mass i * 1

/-- aviary/subsystems/mass/mass_to_weight.py:30-35: the declared partials, on the diagonal. -/
noncomputable def massToWeightGrad (n : ℕ) : Fin n → Fin n → ℝ := fun i j => if i = j then 1 else 0

/-- aviary/mission/two_dof/ode/landing_eom.py:20-25 `LandingAltitudeComponent.compute`. -/
noncomputable def landingAltitude (obstacle airport : ℝ) : ℝ := airport + obstacle

/-- aviary/subsystems/mass/flops_based/landing_gear.py:52-56 `LandingGearTotalMass.compute`. -/
noncomputable def gearTotal (main nose : ℝ) : ℝ := main + nose

end Verif.SmallComponents
