import Verif.Model.SmoothMath

/-! # Body tanks of the GASP mass method

`BodyTankCalculations` of aviary/subsystems/mass/gasp_based/fuel.py.  Numbers are real numbers.
`GRAV_ENGLISH_LBM` is 1.0 (aviary/constants.py:41), so weights and masses are the same numbers.  The
warnings (:142-157) are left out: they change no output. -/

namespace Verif.BodyTank
open Real

/-- The inputs, aviary/subsystems/mass/gasp_based/fuel.py:30-46. -/
structure In where
  design : ℝ
  smax : ℝ
  fmin : ℝ
  req : ℝ
  wmax : ℝ
  geo : ℝ
  rho : ℝ
  gross : ℝ
  fuel : ℝ
  oew : ℝ
  unus : ℝ

/-- The outputs, aviary/subsystems/mass/gasp_based/fuel.py:48-61. -/
structure Out where
  aux : ℝ
  vol : ℝ
  volMass : ℝ
  wmin : ℝ
  cap : ℝ

open Classical in
/-- `sigmoidX(x, 0, mu)` of an array with one entry, aviary/utils/math.py:29-42. -/
noncomputable def sig (x mu : ℝ) : ℝ := if x / mu > -320 then 1 / (1 + exp (-x / mu)) else 0

open Classical in
/-- `dSigmoidXdx(x, 0, mu)` of an array with one entry, aviary/utils/math.py:77-90. -/
noncomputable def dsig (x mu : ℝ) : ℝ :=
  if x / mu > -320 then exp (-x / mu) / mu / ((1 + exp (-x / mu)) * (1 + exp (-x / mu))) else 0

/-! ## Without smoothing -/

open Classical in
/-- `extra_fuel_volume`, aviary/subsystems/mass/gasp_based/fuel.py:130-133, 138. -/
noncomputable def hVol (i : In) : ℝ := max (if i.design < i.smax then 0 else i.design - i.geo) 0

open Classical in
/-- `extra_fuel_wt`, aviary/subsystems/mass/gasp_based/fuel.py:159, 163-164. -/
noncomputable def hAux (i : In) : ℝ := if i.req - i.wmax < 0 then 0 else i.req - i.wmax

open Classical in
/-- `wingfuel_wt_min`, aviary/subsystems/mass/gasp_based/fuel.py:166, 170-171. -/
noncomputable def hWmin (i : In) : ℝ :=
  if i.fmin - hVol i * i.rho < 0 then 0 else i.fmin - hVol i * i.rho

open Classical in
/-- `max_fuel_avail`, aviary/subsystems/mass/gasp_based/fuel.py:173-175, 181-186. -/
noncomputable def hAvail (i : In) : ℝ :=
  if i.gross > i.oew + (i.fuel + hAux i) then i.fuel + hAux i
  else if i.gross < i.oew + (i.fuel + hAux i) then i.gross - i.oew
  else (i.fuel + hAux i + (i.gross - i.oew)) / 2

/-- `compute` without smoothing, aviary/subsystems/mass/gasp_based/fuel.py:109-197. -/
noncomputable def hard (i : In) : Out where
  aux := hAux i
  vol := hVol i
  volMass := hVol i * i.rho
  wmin := hWmin i
  cap := hAvail i + i.unus

/-! ## With smoothing -/

/-- `extra_fuel_volume` before the lower limit, aviary/subsystems/mass/gasp_based/fuel.py:126-128, 217-219. -/
noncomputable def sVol0 (i : In) : ℝ := sig (i.design - i.smax) 1 * (i.design - i.geo)

/-- `extra_fuel_volume`, aviary/subsystems/mass/gasp_based/fuel.py:126-128, 136. -/
noncomputable def sVol (mu : ℝ) (i : In) : ℝ := smoothMax (sVol0 i) 0 mu

/-- `extra_fuel_wt`, aviary/subsystems/mass/gasp_based/fuel.py:159, 161. -/
noncomputable def sAux (i : In) : ℝ := (i.req - i.wmax) * sig (i.req - i.wmax) (1 / 50)

/-- `wingfuel_wt_min`, aviary/subsystems/mass/gasp_based/fuel.py:166, 168. -/
noncomputable def sWmin (mu : ℝ) (i : In) : ℝ :=
  (i.fmin - sVol mu i * i.rho) * sig (i.fmin - sVol mu i * i.rho) 1

/-- `max_fuel_avail`, aviary/subsystems/mass/gasp_based/fuel.py:173-179. -/
noncomputable def sAvail (i : In) : ℝ :=
  (i.fuel + sAux i) * sig (i.gross - (i.oew + (i.fuel + sAux i))) (1 / 110)
    + (i.gross - i.oew) * sig (i.oew + (i.fuel + sAux i) - i.gross) (1 / 110)

/-- `compute` with smoothing, aviary/subsystems/mass/gasp_based/fuel.py:109-197. -/
noncomputable def smooth (mu : ℝ) (i : In) : Out where
  aux := sAux i
  vol := sVol mu i
  volMass := sVol mu i * i.rho
  wmin := sWmin mu i
  cap := sAvail i + i.unus

/-! ## Derivatives -/

/-- The inputs. Part of the model of aviary/subsystems/mass/gasp_based/fuel.py:109-197. -/
inductive Wrt
  | design | smax | fmin | req | wmax | geo | rho | gross | fuel | oew | unus
  deriving DecidableEq

/-- The input named by `w`. Part of the model of aviary/subsystems/mass/gasp_based/fuel.py:109-197. -/
def In.get (i : In) : Wrt → ℝ
  | .design => i.design | .smax => i.smax | .fmin => i.fmin | .req => i.req | .wmax => i.wmax
  | .geo => i.geo | .rho => i.rho | .gross => i.gross | .fuel => i.fuel | .oew => i.oew
  | .unus => i.unus

/-- The inputs with the input named by `w` replaced.
Part of the model of aviary/subsystems/mass/gasp_based/fuel.py:109-197. -/
def In.set (i : In) : Wrt → ℝ → In
  | .design, t => { i with design := t } | .smax, t => { i with smax := t }
  | .fmin, t => { i with fmin := t } | .req, t => { i with req := t }
  | .wmax, t => { i with wmax := t } | .geo, t => { i with geo := t }
  | .rho, t => { i with rho := t } | .gross, t => { i with gross := t }
  | .fuel, t => { i with fuel := t } | .oew, t => { i with oew := t }
  | .unus, t => { i with unus := t }

open Classical in
/-- `dextra_fuel_volume_d…` without smoothing, aviary/subsystems/mass/gasp_based/fuel.py:228-237, 246-250. -/
noncomputable def hdVol (i : In) : Wrt → ℝ
  | .design => if i.design < i.smax then 0 else if i.design - i.geo < 0 then 0 else 1
  | .geo => if i.design < i.smax then 0 else if i.design - i.geo < 0 then 0 else -1
  | _ => 0

open Classical in
/-- `dextra_fuel_wt_d…` without smoothing, aviary/subsystems/mass/gasp_based/fuel.py:261-262, 278-281. -/
noncomputable def hdAux (i : In) : Wrt → ℝ
  | .req => if i.req - i.wmax < 0 then 0 else 1
  | .wmax => if i.req - i.wmax < 0 then 0 else -1
  | _ => 0

/-- `dmax_extra_fuel_wt_d…`, aviary/subsystems/mass/gasp_based/fuel.py:253-257, of the volume `v` and its derivatives `dv`. -/
noncomputable def dVolMass (v : ℝ) (dv : Wrt → ℝ) (i : In) : Wrt → ℝ
  | .design => dv .design * i.rho
  | .smax => dv .smax * i.rho
  | .geo => dv .geo * i.rho
  | .rho => v
  | _ => 0

open Classical in
/-- `dwingfuel_wt_min_d…` without smoothing, aviary/subsystems/mass/gasp_based/fuel.py:284-289, 318-325. -/
noncomputable def hdWmin (i : In) : Wrt → ℝ
  | .fmin => if i.fmin - hVol i * i.rho < 0 then 0 else 1
  | w => if i.fmin - hVol i * i.rho < 0 then 0 else -dVolMass (hVol i) (hdVol i) i w

open Classical in
/-- `dmax_fuel_avail_d…` without smoothing, aviary/subsystems/mass/gasp_based/fuel.py:409-430. -/
noncomputable def hdAvail (i : In) : Wrt → ℝ
  | .fuel => if i.gross > i.oew + i.fuel + hAux i then 1
      else if i.gross < i.oew + i.fuel + hAux i then 0 else 1 / 2
  | .req => if i.gross > i.oew + i.fuel + hAux i then hdAux i .req
      else if i.gross < i.oew + i.fuel + hAux i then 0 else hdAux i .req / 2
  | .wmax => if i.gross > i.oew + i.fuel + hAux i then hdAux i .wmax else 0
  | .gross => if i.gross > i.oew + i.fuel + hAux i then 0
      else if i.gross < i.oew + i.fuel + hAux i then 1 else 1 / 2
  | .oew => if i.gross > i.oew + i.fuel + hAux i then 0
      else if i.gross < i.oew + i.fuel + hAux i then -1 else -1 / 2
  | _ => 0

/-- `compute_partials` without smoothing, aviary/subsystems/mass/gasp_based/fuel.py:199-479, and the constant entry of :105-107. -/
noncomputable def hPart (i : In) (w : Wrt) : Out where
  aux := hdAux i w
  vol := hdVol i w
  volMass := dVolMass (hVol i) (hdVol i) i w
  wmin := hdWmin i w
  cap := if w = .unus then 1 else hdAvail i w

/-- `dextra_fuel_volume_d…` with smoothing, aviary/subsystems/mass/gasp_based/fuel.py:220-226, 240-243. -/
noncomputable def sdVol (mu : ℝ) (i : In) : Wrt → ℝ
  | .design => dSmoothMax (sVol0 i) 0 mu *
      (dsig (i.design - i.smax) 1 * (i.design - i.geo) + sig (i.design - i.smax) 1)
  | .smax => dSmoothMax (sVol0 i) 0 mu * (dsig (i.design - i.smax) 1 * -(i.design - i.geo))
  | .geo => dSmoothMax (sVol0 i) 0 mu * -sig (i.design - i.smax) 1
  | _ => 0

/-- `dextra_fuel_wt_d…` with smoothing, aviary/subsystems/mass/gasp_based/fuel.py:265-276. -/
noncomputable def sdAux (i : In) : Wrt → ℝ
  | .req => sig (i.req - i.wmax) (1 / 50)
      + (i.req - i.wmax) * dsig (i.req - i.wmax) (1 / 50) * 1 / 50
  | .wmax => -1 * sig (i.req - i.wmax) (1 / 50)
      + (i.req - i.wmax) * dsig (i.req - i.wmax) (1 / 50) * (-1 / 50)
  | _ => 0

/-- `dwingfuel_wt_min_d…` with smoothing, aviary/subsystems/mass/gasp_based/fuel.py:284-316: `wingfuel_wt_min` is replaced by its
smoothed value (:291) before the derivatives use it. -/
noncomputable def sdWmin (mu : ℝ) (i : In) (w : Wrt) : ℝ :=
  let d := match w with
    | .fmin => 1
    | w => -dVolMass (sVol mu i) (sdVol mu i) i w
  d * sig (sWmin mu i) 1 + sWmin mu i * dsig (sWmin mu i) 1 * d

/-- `est_GTOW`, aviary/subsystems/mass/gasp_based/fuel.py:342. -/
noncomputable def estGtow (i : In) : ℝ := i.oew + i.fuel + sAux i

/-- `dInt1_d…`, aviary/subsystems/mass/gasp_based/fuel.py:348-362. -/
noncomputable def dInt1 (mu : ℝ) (i : In) : Wrt → ℝ
  | .fuel => dsig (i.gross - estGtow i) (1 / 110) * (-1 / 110)
  | .req => dsig (i.gross - estGtow i) (1 / 110) * -sdAux i .req / 100
  | .wmax => dsig (i.gross - estGtow i) (1 / 110) * -dVolMass (sVol mu i) (sdVol mu i) i .smax / 100
  | .gross => dsig (i.gross - estGtow i) (1 / 110) / 110
  | .oew => dsig (i.gross - estGtow i) (1 / 110) * (-1 / 110)
  | _ => 0

/-- `dInt2_d…`, aviary/subsystems/mass/gasp_based/fuel.py:364-378. -/
noncomputable def dInt2 (mu : ℝ) (i : In) : Wrt → ℝ
  | .fuel => dsig (estGtow i - i.gross) (1 / 110) / 110
  | .req => dsig (estGtow i - i.gross) (1 / 110) * sdAux i .req / 100
  | .wmax => dsig (estGtow i - i.gross) (1 / 110) * dVolMass (sVol mu i) (sdVol mu i) i .smax / 100
  | .gross => dsig (estGtow i - i.gross) (1 / 110) * (-1 / 110)
  | .oew => dsig (estGtow i - i.gross) (1 / 110) / 110
  | _ => 0

/-- `dmax_fuel_avail_est_d…` and `dmax_fuel_avail_new_d…`, aviary/subsystems/mass/gasp_based/fuel.py:328-340. -/
noncomputable def sdEst (i : In) : Wrt → ℝ
  | .fuel => 1
  | .req => sdAux i .req
  | .wmax => sdAux i .wmax
  | _ => 0

/-- See `sdEst`. Part of the model of aviary/subsystems/mass/gasp_based/fuel.py:344-345, 379-408. -/
noncomputable def sdNew : Wrt → ℝ
  | .gross => 1
  | .oew => -1
  | _ => 0

/-- `dmax_fuel_avail_d…` with smoothing, aviary/subsystems/mass/gasp_based/fuel.py:344-345, 379-408. -/
noncomputable def sdAvail (mu : ℝ) (i : In) (w : Wrt) : ℝ :=
  sdEst i w * sig (i.gross - estGtow i) (1 / 110) + (i.fuel + sAux i) * dInt1 mu i w
    + sdNew w * sig (estGtow i - i.gross) (1 / 110) + (i.gross - i.oew) * dInt2 mu i w

/-- `compute_partials` with smoothing, aviary/subsystems/mass/gasp_based/fuel.py:199-479. -/
noncomputable def sPart (mu : ℝ) (i : In) (w : Wrt) : Out where
  aux := sdAux i w
  vol := sdVol mu i w
  volMass := dVolMass (sVol mu i) (sdVol mu i) i w
  wmin := sdWmin mu i w
  cap := if w = .unus then 1 else sdAvail mu i w

end Verif.BodyTank
