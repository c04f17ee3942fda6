import Verif.Lemmas.VecDeriv
import Mathlib.Analysis.SpecialFunctions.Log.Deriv
import Mathlib.Analysis.SpecialFunctions.Pow.Deriv
import Mathlib.Analysis.SpecialFunctions.Sqrt

/-! # Skin friction of the FLOPS aerodynamics

Numbers are real numbers.  Every entry of the arrays of `SkinFriction` depends on the inputs of its
node and the length of its component only, so one entry is modelled; the components of
`SkinFrictionDrag` are indexed by `Fin n` and its nodes, which are independent, are left out. -/

namespace Verif.SkinFriction
open Real

/-! ## aviary/subsystems/aerodynamics/flops_based/skin_friction.py -/

/-- `sea_level_pressure`, aviary/subsystems/aerodynamics/flops_based/skin_friction.py:24. -/
noncomputable def slp : ℝ := 146959 / 10000 * 144

/-- `CONLOG`, aviary/subsystems/aerodynamics/flops_based/skin_friction.py:22. -/
noncomputable def conlog : ℝ := 2302585 / 1000000

/-- `kelvin`, aviary/subsystems/aerodynamics/flops_based/skin_friction.py:141, 164, 210. -/
noncomputable def kelvin (T : ℝ) : ℝ := T / (18 / 10)

/-- `RE`, aviary/subsystems/aerodynamics/flops_based/skin_friction.py:142, 165, 211. -/
noncomputable def RE (T p : ℝ) : ℝ :=
  1479301000 * (p / slp) * (kelvin T + 1104 / 10) / kelvin T ^ 2

/-- `dRE_dp`, aviary/subsystems/aerodynamics/flops_based/skin_friction.py:213. -/
noncomputable def dREp (T : ℝ) : ℝ := 1479301000 * (kelvin T + 1104 / 10) / (slp * kelvin T ^ 2)

/-- `dRE_dT`, aviary/subsystems/aerodynamics/flops_based/skin_friction.py:214. -/
noncomputable def dRET (T p : ℝ) : ℝ :=
  -1479301000 / (18 / 10) * (p / slp * (1 / kelvin T ^ 2 + 2 * (1104 / 10) / kelvin T ^ 3))

/-- `reynolds_num`, aviary/subsystems/aerodynamics/flops_based/skin_friction.py:145, 175, 216. -/
noncomputable def reynolds (T p M L : ℝ) : ℝ := RE T p * M * L

/-- The constant of `combined_const`, `4.593153e-6 * E`, aviary/subsystems/aerodynamics/flops_based/skin_friction.py:169, 172. -/
noncomputable def combK : ℝ := 4593153 / 1000000000000 * (80 / 100)

/-- `combined_const`, aviary/subsystems/aerodynamics/flops_based/skin_friction.py:168-172, 229. -/
noncomputable def comb (T p M : ℝ) : ℝ :=
  combK * (T + 19872 / 100) / (RE T p * M * T ^ (3 / 2 : ℝ))

/-- `dcomb_dRE`, aviary/subsystems/aerodynamics/flops_based/skin_friction.py:230. -/
noncomputable def dCombRE (T p M : ℝ) : ℝ :=
  -combK * (T + 19872 / 100) / (RE T p * RE T p * M * T ^ (3 / 2 : ℝ))

/-- `dcomb_dmach`, aviary/subsystems/aerodynamics/flops_based/skin_friction.py:231. -/
noncomputable def dCombM (T p M : ℝ) : ℝ :=
  -combK * (T + 19872 / 100) / (RE T p * M * M * T ^ (3 / 2 : ℝ))

/-- `dcomb_dT`, aviary/subsystems/aerodynamics/flops_based/skin_friction.py:232-235. -/
noncomputable def dCombT (T p M : ℝ) : ℝ :=
  combK * (1 / T ^ (3 / 2 : ℝ) - 3 / 2 * (T + 19872 / 100) / T ^ (5 / 2 : ℝ)) / (RE T p * M)
    + dCombRE T p M * dRET T p

/-- `dcomb_dp`, aviary/subsystems/aerodynamics/flops_based/skin_friction.py:236. -/
noncomputable def dCombp (T p M : ℝ) : ℝ := dCombRE T p M * dREp T

/-- `wall_temp_ratio`, aviary/subsystems/aerodynamics/flops_based/skin_friction.py:179-182, 238-241. -/
noncomputable def wtr (T M w : ℝ) : ℝ :=
  1 + 45 / 100 * (w * (1 / T) - 1) + 35 / 1000 * M * M

/-- `dwtr_dmach`, aviary/subsystems/aerodynamics/flops_based/skin_friction.py:242. -/
noncomputable def dWtrM (M : ℝ) : ℝ := 7 / 100 * M
/-- `dwtr_dT`, aviary/subsystems/aerodynamics/flops_based/skin_friction.py:243. -/
noncomputable def dWtrT (T w : ℝ) : ℝ := -(45 / 100) * (w * (1 / T ^ 2))
/-- `dwtr_dwt`, aviary/subsystems/aerodynamics/flops_based/skin_friction.py:244. -/
noncomputable def dWtrw (T : ℝ) : ℝ := 45 / 100 / T

/-- `CFL`, aviary/subsystems/aerodynamics/flops_based/skin_friction.py:184, 247. -/
noncomputable def CFL (cf r : ℝ) : ℝ := cf / (1 + 359 / 100 * √cf * r)

/-- `dCFL_dcf`, aviary/subsystems/aerodynamics/flops_based/skin_friction.py:246, 248. -/
noncomputable def dCFLcf (cf r : ℝ) : ℝ :=
  1 / (1 + 359 / 100 * √cf * r)
    - cf * (359 / 100) * r * (1 / 2) / (√cf * (1 + 359 / 100 * √cf * r) ^ 2)

/-- `dCFL_dwtr`, aviary/subsystems/aerodynamics/flops_based/skin_friction.py:249. -/
noncomputable def dCFLr (cf r : ℝ) : ℝ :=
  -cf * (359 / 100) * √cf / (1 + 359 / 100 * √cf * r) ^ 2

/-- Residual of `wall_temp` as a function of `TAW`, the combined constant, `CFL` and the wall
temperature, aviary/subsystems/aerodynamics/flops_based/skin_friction.py:186-187. -/
noncomputable def resWall0 (taw c F w : ℝ) : ℝ := (taw / (1 + c * w ^ 3 / F) + w) * (1 / 2) - w

/-- Residual of `wall_temp`, aviary/subsystems/aerodynamics/flops_based/skin_friction.py:172-187, for the value `taw` kept in `self.TAW`. -/
noncomputable def resWall (taw T p M cf w : ℝ) : ℝ :=
  resWall0 taw (comb T p M) (CFL cf (wtr T M w)) w

/-- `self.TAW` as set by `guess_nonlinear` at the start of each solution, aviary/subsystems/aerodynamics/flops_based/skin_friction.py:149-152. -/
noncomputable def TAW (T M : ℝ) : ℝ := (1 + 176 / 1000 * M * M) * T

/-- `dreswt_dcomb`, aviary/subsystems/aerodynamics/flops_based/skin_friction.py:254-256. -/
noncomputable def dWallComb (taw c F w : ℝ) : ℝ :=
  -(1 / 2) * taw * w ^ 3 / (F * (1 + c * w ^ 3 / F) ^ 2)
/-- `dreswt_dCFL`, aviary/subsystems/aerodynamics/flops_based/skin_friction.py:257. -/
noncomputable def dWallCFL (taw c F w : ℝ) : ℝ :=
  1 / 2 * taw * (c * w ^ 3) / (F * (1 + c * w ^ 3 / F)) ^ 2
/-- `dreswt_dwt`, aviary/subsystems/aerodynamics/flops_based/skin_friction.py:258-260. -/
noncomputable def dWallw (taw c F w : ℝ) : ℝ :=
  -(1 / 2) - 3 / 2 * taw * (c * w ^ 2) / (F * (1 + c * w ^ 3 / F) ^ 2)

/-- `partials['wall_temp', STATIC_PRESSURE]`, aviary/subsystems/aerodynamics/flops_based/skin_friction.py:262-264. -/
noncomputable def jWallp (taw T p M cf w : ℝ) : ℝ :=
  dWallComb taw (comb T p M) (CFL cf (wtr T M w)) w * dCombp T p M

/-- `partials['wall_temp', TEMPERATURE]`, aviary/subsystems/aerodynamics/flops_based/skin_friction.py:251, 265-267. -/
noncomputable def jWallT (taw T p M cf w : ℝ) : ℝ :=
  dWallComb taw (comb T p M) (CFL cf (wtr T M w)) w * dCombT T p M
    + dWallCFL taw (comb T p M) (CFL cf (wtr T M w)) w * (dCFLr cf (wtr T M w) * dWtrT T w)

/-- `partials['wall_temp', MACH]`, aviary/subsystems/aerodynamics/flops_based/skin_friction.py:250, 268-270. -/
noncomputable def jWallM (taw T p M cf w : ℝ) : ℝ :=
  dWallComb taw (comb T p M) (CFL cf (wtr T M w)) w * dCombM T p M
    + dWallCFL taw (comb T p M) (CFL cf (wtr T M w)) w * (dCFLr cf (wtr T M w) * dWtrM M)

/-- `partials['wall_temp', 'wall_temp']`, aviary/subsystems/aerodynamics/flops_based/skin_friction.py:252, 271. -/
noncomputable def jWallw (taw T p M cf w : ℝ) : ℝ :=
  dWallCFL taw (comb T p M) (CFL cf (wtr T M w)) w * (dCFLr cf (wtr T M w) * dWtrw T)
    + dWallw taw (comb T p M) (CFL cf (wtr T M w)) w

/-- `partials['wall_temp', 'cf_iter']`, aviary/subsystems/aerodynamics/flops_based/skin_friction.py:272. -/
noncomputable def jWallcf (taw T p M cf w : ℝ) : ℝ :=
  dWallCFL taw (comb T p M) (CFL cf (wtr T M w)) w * dCFLcf cf (wtr T M w)

/-- `RP` as a function of Reynolds number, temperature ratio and temperature,
aviary/subsystems/aerodynamics/flops_based/skin_friction.py:189-193, 274-276. -/
noncomputable def RP0 (R r T : ℝ) : ℝ :=
  R * (r * T + 19872 / 100) / ((T + 19872 / 100) * r ^ (5 / 2 : ℝ))

/-- `RP`, aviary/subsystems/aerodynamics/flops_based/skin_friction.py:189-193. -/
noncomputable def RP (T p M L w : ℝ) : ℝ := RP0 (reynolds T p M L) (wtr T M w) T

/-- Residual of `cf_iter` for a value of `RP`, aviary/subsystems/aerodynamics/flops_based/skin_friction.py:195. -/
noncomputable def resCf0 (rp cf : ℝ) : ℝ := (242 / 1000 * conlog / log (rp * cf)) ^ 2 - cf

/-- Residual of `cf_iter`, aviary/subsystems/aerodynamics/flops_based/skin_friction.py:189-195. -/
noncomputable def resCf (T p M L cf w : ℝ) : ℝ := resCf0 (RP T p M L w) cf

/-- `den`, aviary/subsystems/aerodynamics/flops_based/skin_friction.py:274. -/
noncomputable def rpDen (r T : ℝ) : ℝ := 1 / ((T + 19872 / 100) * r ^ (5 / 2 : ℝ))
/-- `num`, aviary/subsystems/aerodynamics/flops_based/skin_friction.py:275. -/
noncomputable def rpNum (r T : ℝ) : ℝ := r * T + 19872 / 100

/-- `dRP_dreyn`, aviary/subsystems/aerodynamics/flops_based/skin_friction.py:277. -/
noncomputable def dRPreyn (r T : ℝ) : ℝ := rpNum r T * rpDen r T
/-- `dRP_dwtr`, aviary/subsystems/aerodynamics/flops_based/skin_friction.py:278-281. -/
noncomputable def dRPr (R r T : ℝ) : ℝ :=
  R * (T * (1 * rpDen r T)
    - rpNum r T * (5 / 2) * ((T + 19872 / 100) * r ^ (3 / 2 : ℝ)) * rpDen r T ^ 2)
/-- The first `dRP_dT`, aviary/subsystems/aerodynamics/flops_based/skin_friction.py:282. -/
noncomputable def dRPT0 (R r T : ℝ) : ℝ :=
  R * (r * rpDen r T - rpNum r T * r ^ (5 / 2 : ℝ) * rpDen r T ^ 2)

/-- `fact`, aviary/subsystems/aerodynamics/flops_based/skin_friction.py:289. -/
noncomputable def fact : ℝ := (242 / 1000 * conlog) ^ 2
/-- `drescf_dRP`, aviary/subsystems/aerodynamics/flops_based/skin_friction.py:290. -/
noncomputable def dCfRP (rp cf : ℝ) : ℝ := -2 * fact / (rp * log (rp * cf) ^ 3)
/-- `drescf_dcf` and `partials['cf_iter', 'cf_iter']`, aviary/subsystems/aerodynamics/flops_based/skin_friction.py:291, 298. -/
noncomputable def dCfcf (rp cf : ℝ) : ℝ := -2 * fact / (cf * log (rp * cf) ^ 3) - 1

/-- `partials['cf_iter', STATIC_PRESSURE]`, aviary/subsystems/aerodynamics/flops_based/skin_friction.py:217, 283, 293. -/
noncomputable def jCfp (T p M L cf w : ℝ) : ℝ :=
  dCfRP (RP T p M L w) cf * (dRPreyn (wtr T M w) T * (dREp T * M * L))
/-- `partials['cf_iter', TEMPERATURE]`, aviary/subsystems/aerodynamics/flops_based/skin_friction.py:218, 284, 294. -/
noncomputable def jCfT (T p M L cf w : ℝ) : ℝ :=
  dCfRP (RP T p M L w) cf * (dRPreyn (wtr T M w) T * (dRET T p * M * L)
    + dRPr (reynolds T p M L) (wtr T M w) T * dWtrT T w + dRPT0 (reynolds T p M L) (wtr T M w) T)
/-- `partials['cf_iter', MACH]`, aviary/subsystems/aerodynamics/flops_based/skin_friction.py:219, 285, 295. -/
noncomputable def jCfM (T p M L cf w : ℝ) : ℝ :=
  dCfRP (RP T p M L w) cf * (dRPreyn (wtr T M w) T * (RE T p * L)
    + dRPr (reynolds T p M L) (wtr T M w) T * dWtrM M)
/-- `partials['cf_iter', 'characteristic_lengths']`, aviary/subsystems/aerodynamics/flops_based/skin_friction.py:220, 286, 296. -/
noncomputable def jCfL (T p M L cf w : ℝ) : ℝ :=
  dCfRP (RP T p M L w) cf * (dRPreyn (wtr T M w) T * (RE T p * M))
/-- `partials['cf_iter', 'wall_temp']`, aviary/subsystems/aerodynamics/flops_based/skin_friction.py:287, 297. -/
noncomputable def jCfw (T p M L cf w : ℝ) : ℝ :=
  dCfRP (RP T p M L w) cf * (dRPr (reynolds T p M L) (wtr T M w) T * dWtrw T)

/-- Residual of `skin_friction_coeff`, aviary/subsystems/aerodynamics/flops_based/skin_friction.py:197-199. -/
noncomputable def resSkf (out cf r : ℝ) : ℝ := out - cf / r

/-- `dskf_dwtr`, aviary/subsystems/aerodynamics/flops_based/skin_friction.py:300. -/
noncomputable def dSkfr (cf r : ℝ) : ℝ := cf / r ^ 2

/-! ## aviary/subsystems/aerodynamics/flops_based/skin_friction_drag.py -/

/-- Form factor of bodies, aviary/subsystems/aerodynamics/flops_based/skin_friction_drag.py:18-24, 158-160. -/
noncomputable def bodyForm (f : ℝ) : ℝ :=
  434255 / 100000 + f * (-114281 / 100000 + f * (171203 / 1000000 + f * (-138334 / 10000000
    + f * (621712 / 1000000000 + f * (137442 / 1000000000000 * f + -145532 / 10000000000)))))

/-- Derivative for bodies, aviary/subsystems/aerodynamics/flops_based/skin_friction_drag.py:229-232. -/
noncomputable def dBodyForm (f : ℝ) : ℝ :=
  -114281 / 100000 + f * (2 * (171203 / 1000000) + f * (3 * (-138334 / 10000000)
    + f * (4 * (621712 / 1000000000)
      + f * (6 * (137442 / 1000000000000) * f + 5 * (-145532 / 10000000000)))))

/-- The form factor of bodies with the two terms in the order the comment expects,
aviary/subsystems/aerodynamics/flops_based/skin_friction_drag.py:154-157. -/
noncomputable def bodyFormSwapped (f : ℝ) : ℝ :=
  434255 / 100000 + f * (-114281 / 100000 + f * (171203 / 1000000 + f * (-138334 / 10000000
    + f * (621712 / 1000000000 + f * (137442 / 1000000000000 + f * (-145532 / 10000000000))))))

/-- `FF1`, aviary/subsystems/aerodynamics/flops_based/skin_friction_drag.py:170-172. -/
noncomputable def ff1 (f : ℝ) : ℝ :=
  1 + f * (294206 / 100000 + f * (716974 / 100000 + f * (488876 / 10000 + f * (-140302 / 100
    + f * (859876 / 100 + f * (-158343 / 10))))))

/-- `dFF1`, aviary/subsystems/aerodynamics/flops_based/skin_friction_drag.py:249-252. -/
noncomputable def dff1 (f : ℝ) : ℝ :=
  294206 / 100000 + f * (2 * (716974 / 100000) + f * (3 * (488876 / 10000) + f * (4 * (-140302 / 100)
    + f * (5 * (859876 / 100) + f * 6 * (-158343 / 10)))))

/-- Form factor of surfaces, aviary/subsystems/aerodynamics/flops_based/skin_friction_drag.py:165-175; `a` is the option
`AIRFOIL_TECHNOLOGY`. -/
noncomputable def surfForm (a f : ℝ) : ℝ := ff1 f * (2 - a) + (1 + f * (4275 / 1000)) * (a - 1)

/-- aviary/subsystems/aerodynamics/flops_based/skin_friction_drag.py:249-256 -/
noncomputable def dSurfForm (a f : ℝ) : ℝ := dff1 f * (2 - a) + 4275 / 1000 * (a - 1)

/-- Entry of `form_factor`, aviary/subsystems/aerodynamics/flops_based/skin_friction_drag.py:150-175. -/
noncomputable def form (a f : ℝ) : ℝ :=
  if 20 ≤ f then 1 else if 1 / 2 < f then bodyForm f else surfForm a f

/-- Entry of `dform_dfine`, aviary/subsystems/aerodynamics/flops_based/skin_friction_drag.py:223-256. -/
noncomputable def dForm (a f : ℝ) : ℝ :=
  if 20 ≤ f then 0 else if 1 / 2 < f then dBodyForm f else dSurfForm a f

/-- `_calc_laminar_flow`, aviary/subsystems/aerodynamics/flops_based/skin_friction_drag.py:297-298. -/
noncomputable def lamFlow (x : ℝ) : ℝ :=
  x * (64164 / 10000000 + x * (48087 / 1000000000 - 12234 / 100000000000 * x))

/-- `_calc_laminar_flow_deriv`, aviary/subsystems/aerodynamics/flops_based/skin_friction_drag.py:301-302. -/
noncomputable def dLamFlow (x : ℝ) : ℝ :=
  64164 / 10000000 + x * (96174 / 1000000000 - 36702 / 100000000000 * x)

variable {n : ℕ}

/-- Inputs of `SkinFrictionDrag` at one node, aviary/subsystems/aerodynamics/flops_based/skin_friction_drag.py:52-84. -/
structure DragIn (n : ℕ) where
  cf : Fin n → ℝ
  re : Fin n → ℝ
  fine : Fin n → ℝ
  wet : Fin n → ℝ
  up : Fin n → ℝ
  low : Fin n → ℝ
  exc : ℝ
  area : ℝ

/-- `laminar_flow`, aviary/subsystems/aerodynamics/flops_based/skin_friction_drag.py:139, 205. -/
def laminar (x : DragIn n) : Prop := (∃ j, 0 < x.up j) ∨ ∃ j, 0 < x.low j

open Classical in
/-- Entry of `cf` with laminar flow, aviary/subsystems/aerodynamics/flops_based/skin_friction_drag.py:141-144, 209-216. -/
noncomputable def cfLam (x : DragIn n) (j : Fin n) : ℝ :=
  if laminar x then
    x.cf j - 1 / 2 * (x.cf j - 1328 / 1000 / √(x.re j)) * (lamFlow (x.low j) + lamFlow (x.up j))
  else x.cf j

/-- `CDF0`, aviary/subsystems/aerodynamics/flops_based/skin_friction_drag.py:177, 259. -/
noncomputable def cdf0 (a : ℝ) (x : DragIn n) : ℝ :=
  (∑ j, x.wet j * cfLam x j * form a (x.fine j)) * (1 / x.area)

/-- `SkinFrictionDrag.compute`, aviary/subsystems/aerodynamics/flops_based/skin_friction_drag.py:127-190. -/
noncomputable def drag (a : ℝ) (x : DragIn n) : ℝ := cdf0 a x * (1 + x.exc)

/-- First `DCDF_dcf`, aviary/subsystems/aerodynamics/flops_based/skin_friction_drag.py:264. -/
noncomputable def dDragCf0 (a : ℝ) (x : DragIn n) (j : Fin n) : ℝ :=
  (1 + x.exc) * x.wet j * form a (x.fine j) * (1 / x.area)

open Classical in
/-- Partial by `skin_friction_coeff`, aviary/subsystems/aerodynamics/flops_based/skin_friction_drag.py:213, 271-275. -/
noncomputable def dDragCf (a : ℝ) (x : DragIn n) (j : Fin n) : ℝ :=
  if laminar x then dDragCf0 a x j * (1 - 1 / 2 * (lamFlow (x.low j) + lamFlow (x.up j)))
  else dDragCf0 a x j

open Classical in
/-- Partial by `Re` after `compute_partials`, aviary/subsystems/aerodynamics/flops_based/skin_friction_drag.py:214, 271-278: it is
written only with laminar flow, otherwise the value `old` of the last call stays. -/
noncomputable def dDragRe (a : ℝ) (x : DragIn n) (old : ℝ) (j : Fin n) : ℝ :=
  if laminar x then
    dDragCf0 a x j * (-(1 / 4) * (1328 / 1000) / x.re j ^ (3 / 2 : ℝ)
      * (lamFlow (x.low j) + lamFlow (x.up j)))
  else old

/-- Partial by `fineness_ratios`, aviary/subsystems/aerodynamics/flops_based/skin_friction_drag.py:265, 280-282. -/
noncomputable def dDragFine (a : ℝ) (x : DragIn n) (j : Fin n) : ℝ :=
  (1 + x.exc) * (x.wet j * cfLam x j) * (1 / x.area) * dForm a (x.fine j)

/-- Partial by `wetted_areas`, aviary/subsystems/aerodynamics/flops_based/skin_friction_drag.py:263, 284. -/
noncomputable def dDragWet (a : ℝ) (x : DragIn n) (j : Fin n) : ℝ :=
  (1 + x.exc) * (cfLam x j * form a (x.fine j)) * (1 / x.area)

/-- `lam_lam`, aviary/subsystems/aerodynamics/flops_based/skin_friction_drag.py:207-208. -/
noncomputable def lamLam (x : DragIn n) (j : Fin n) : ℝ :=
  -(1 / 2) * (x.cf j - 1328 / 1000 * (1 / √(x.re j)))

/-- Partial by `laminar_fractions_upper`, aviary/subsystems/aerodynamics/flops_based/skin_friction_drag.py:268, 286. -/
noncomputable def dDragUp (a : ℝ) (x : DragIn n) (j : Fin n) : ℝ :=
  dDragCf0 a x j * lamLam x j * dLamFlow (x.up j)

/-- Partial by `laminar_fractions_lower`, aviary/subsystems/aerodynamics/flops_based/skin_friction_drag.py:269, 288. -/
noncomputable def dDragLow (a : ℝ) (x : DragIn n) (j : Fin n) : ℝ :=
  dDragCf0 a x j * lamLam x j * dLamFlow (x.low j)

/-- Partial by the wing area, aviary/subsystems/aerodynamics/flops_based/skin_friction_drag.py:266, 290. -/
noncomputable def dDragArea (a : ℝ) (x : DragIn n) : ℝ :=
  -(1 + x.exc) * (∑ j, x.wet j * cfLam x j * form a (x.fine j)) * (1 / x.area) ^ 2

end Verif.SkinFriction
