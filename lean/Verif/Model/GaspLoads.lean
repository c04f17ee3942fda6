import Verif.Lemmas.CompDeriv
import Verif.Model.Dict
import Mathlib.Algebra.BigOperators.Fin
import Mathlib.Order.Fin.Basic

/-!
# Design speeds, ultimate load factor and landing gear of GASP

Hand-written model of `compute` and `compute_partials` of `LoadSpeeds`, `LoadFactors`, `BWBLoadSpeeds`,
`BWBLoadFactors` (aviary/subsystems/mass/gasp_based/design_load.py) and `TotalLandingGearMass`
(aviary/subsystems/mass/gasp_based/landing.py). Real numbers replace floats. A partial that is not
assigned is 0. The wing loading of the blended wing body is gross mass over exposed area; `dw` stands for its derivative
by the input (1 for `LoadSpeeds` and `LoadFactors`).
-/

namespace Verif.GaspLoads
open Real

/-- `dquotient`, aviary/subsystems/mass/gasp_based/design_load.py:10-12. -/
noncomputable def dquot (u v du dv : ℝ) : ℝ := (du * v - u * dv) / v ^ 2

/-! ## Speeds -/

/-- `VCCOF`, aviary/subsystems/mass/gasp_based/design_load.py:67-76 and 1231-1240. -/
noncomputable def vccof (catd : ℤ) (above : Bool) (w : ℝ) : ℝ :=
  if catd = 2 then if above then 36 - 0.0925 * (w - 20) else 36
  else if above then 33 - 0.055 * (w - 20) else 33

/-- `dVCCOF_dwing_loading`, aviary/subsystems/mass/gasp_based/design_load.py:149-163 and 1329-1350. -/
noncomputable def dvccof (catd : ℤ) (above : Bool) : ℝ :=
  if catd = 2 then if above then -0.0925 else 0 else if above then -0.055 else 0

/-- `VCMIN` before it is limited, aviary/subsystems/mass/gasp_based/design_load.py:78 and 1242. -/
noncomputable def vcmin (catd : ℤ) (above : Bool) (w : ℝ) : ℝ := vccof catd above w * w ^ (1 / 2 : ℝ)

/-- `dVCMIN_dwing_loading` before the limit, aviary/subsystems/mass/gasp_based/design_load.py:166-168 and 1352-1362. -/
noncomputable def dvcmin (catd : ℤ) (above : Bool) (w dw : ℝ) : ℝ :=
  dvccof catd above * dw * w ^ (1 / 2 : ℝ) + vccof catd above w * (0.5 * w ^ (-1 / 2 : ℝ)) * dw

/-- Limit of the design cruise speed by `VCMAX`, aviary/subsystems/mass/gasp_based/design_load.py:80-86 and 1244-1250. -/
noncomputable def limC (smooth : Bool) (v m : ℝ) : ℝ :=
  if smooth then v * sigX (v / m) 1 (-0.01) + m * sigX (v / m) 1 0.01 else if v > m then m else v

/-- `dVCMIN_dwing_loading`, aviary/subsystems/mass/gasp_based/design_load.py:171-180, 201-205, 1365-1378 and 1399-1404. -/
noncomputable def limCW (smooth : Bool) (v m dv : ℝ) : ℝ :=
  if smooth then
    dv * sigX (v / m) 1 (-0.01) + v * dsigX (v / m) 1 0.01 * -dv / m + m * dsigX (v / m) 1 0.01 * dv / m
  else if v > m then 0 else dv

/-- `dVCMIN_dmax_struct_speed_mph`, aviary/subsystems/mass/gasp_based/design_load.py:169, 181-205, 1363 and 1379-1404. -/
noncomputable def limCM (smooth : Bool) (v m dm : ℝ) : ℝ :=
  if smooth then
    0 * sigX (v / m) 1 (-0.01) + v * dsigX (v / m) 1 0.01 * dquot (m - v) m (dm - 0) dm
      + dm * sigX (v / m) 1 0.01 + m * dsigX (v / m) 1 0.01 * dquot (v - m) m (0 - dm) dm
  else if v > m then dm else 0

/-- `VDCOF`, aviary/subsystems/mass/gasp_based/design_load.py:88-100 and 1255-1269. -/
noncomputable def vdcof (catd : ℤ) (above : Bool) (w : ℝ) : ℝ :=
  if catd = 0 then if above then 1.4 - 0.000625 * (w - 20) else 1.4
  else if catd = 1 then if above then 1.5 - 0.001875 * (w - 20) else 1.5
  else if above then 1.55 - 0.0025 * (w - 20) else 1.55

/-- `dVDCOF_dwing_loading`, aviary/subsystems/mass/gasp_based/design_load.py:212-233 and 1406-1442. -/
noncomputable def dvdcof (catd : ℤ) (above : Bool) : ℝ :=
  if catd = 0 then if above then -0.000625 else 0
  else if catd = 1 then if above then -0.001875 else 0 else if above then -0.0025 else 0

/-- Limit of the dive speed by the structural speed, aviary/subsystems/mass/gasp_based/design_load.py:104-110 and 1273-1279. -/
noncomputable def limD (smooth : Bool) (d s : ℝ) : ℝ :=
  if smooth then s * sigX (d / s) 1 (-0.01) + d * sigX (d / s) 1 0.01 else if d < s then s else d

/-- Its partials, aviary/subsystems/mass/gasp_based/design_load.py:241-294 and 1451-1529; `dd`, `ds` are the derivatives of the
dive speed and of the structural speed by the input. -/
noncomputable def jLimD (smooth : Bool) (d s dd ds : ℝ) : ℝ :=
  if smooth then
    ds * sigX (d / s) 1 (-0.01) + s * dsigX (d / s) 1 0.01 * dquot (s - d) s (ds - dd) ds
      + dd * sigX (d / s) 1 0.01 + d * dsigX (d / s) 1 0.01 * dquot (d - s) s (dd - ds) ds
  else if d < s then ds else dd

/-- The outputs of `LoadSpeeds`, aviary/subsystems/mass/gasp_based/design_load.py:129-132. -/
structure Speeds where
  airspeed : ℝ
  velC : ℝ
  factor : ℝ
  dive : ℝ

/-- Design cruise speed for categories below 3, aviary/subsystems/mass/gasp_based/design_load.py:66-86, 113. -/
noncomputable def cruise (catd : ℤ) (above smooth : Bool) (w mph : ℝ) : ℝ :=
  limC smooth (vcmin catd above w) (0.9 * (mph / 1.15))

/-- Dive speed for categories below 3, aviary/subsystems/mass/gasp_based/design_load.py:88-110. -/
noncomputable def dive (catd : ℤ) (above smooth : Bool) (w mph : ℝ) : ℝ :=
  limD smooth (vdcof catd above w * cruise catd above smooth w mph) (mph / 1.15)

/-- The assigned values of `compute`, aviary/subsystems/mass/gasp_based/design_load.py:62-132 and 1222-1306, for categories from 0. -/
noncomputable def speedsVal (catd : ℤ) (above smooth : Bool) (w mph : ℝ) : Speeds :=
  if catd < 3 then
    { airspeed := 0.85 * dive catd above smooth w mph
      velC := cruise catd above smooth w mph
      factor := if catd = 0 then 3.8 else if catd = 1 then 4.4 else 6
      dive := dive catd above smooth w mph }
  else if catd = 3 then { airspeed := mph / 1.15, velC := mph / 1.15, factor := 2.5, dive := 1.2 * (mph / 1.15) }
  else { airspeed := mph / 1.15, velC := mph / 1.15, factor := catd, dive := 1.2 * (mph / 1.15) }

/-- `compute`, aviary/subsystems/mass/gasp_based/design_load.py:52-132 and 1212-1306: for a negative category the maneuver
factor (`LoadSpeeds`) or `VDCOF` (`BWBLoadSpeeds`) is unbound. The category is a whole number
(aviary/variable_info/variable_meta_data.py:1610-1618). -/
noncomputable def speeds (catd : ℤ) (above smooth : Bool) (w mph : ℝ) : Except Err Speeds :=
  if catd < 0 then .error .unboundLocal else .ok (speedsVal catd above smooth w mph)

/-- Derivative of the limited cruise speed by the wing loading as used by the code; the block for category 1 at
aviary/subsystems/mass/gasp_based/design_load.py:207-210 exists in `LoadSpeeds` only. -/
noncomputable def cruiseW (bwb : Bool) (catd : ℤ) (above smooth : Bool) (w mph dw : ℝ) : ℝ :=
  if catd = 1 ∧ bwb = false then 0
  else limCW smooth (vcmin catd above w) (0.9 * (mph / 1.15)) (dvcmin catd above w dw)

/-- Derivative of the limited cruise speed by the structural speed as used by the code,
aviary/subsystems/mass/gasp_based/design_load.py:169-210 and 1363-1404. -/
noncomputable def cruiseM (bwb : Bool) (catd : ℤ) (above smooth : Bool) (w mph : ℝ) : ℝ :=
  if catd = 1 ∧ bwb = false then 0.9 / 1.15
  else limCM smooth (vcmin catd above w) (0.9 * (mph / 1.15)) (0.9 / 1.15)

/-- Derivative of the dive speed by the wing loading, aviary/subsystems/mass/gasp_based/design_load.py:235-294 and 1444-1529. -/
noncomputable def diveW (bwb : Bool) (catd : ℤ) (above smooth : Bool) (w mph dw : ℝ) : ℝ :=
  jLimD smooth (vdcof catd above w * cruise catd above smooth w mph) (mph / 1.15)
    (dvdcof catd above * dw * cruise catd above smooth w mph + vdcof catd above w * cruiseW bwb catd above smooth w mph dw) 0

/-- Derivative of the dive speed by the structural speed, aviary/subsystems/mass/gasp_based/design_load.py:239-294 and 1449-1529. -/
noncomputable def diveM (bwb : Bool) (catd : ℤ) (above smooth : Bool) (w mph : ℝ) : ℝ :=
  jLimD smooth (vdcof catd above w * cruise catd above smooth w mph) (mph / 1.15)
    (vdcof catd above w * cruiseM bwb catd above smooth w mph) (1 / 1.15)

/-- `compute_partials` by the wing loading (or by an input it depends on with derivative `dw`),
aviary/subsystems/mass/gasp_based/design_load.py:134-330 and 1308-1566; the maneuver factor has no entry. -/
noncomputable def jW (bwb : Bool) (catd : ℤ) (above smooth : Bool) (w mph dw : ℝ) : Speeds :=
  if catd < 3 then
    { airspeed := 0.85 * diveW bwb catd above smooth w mph dw, velC := cruiseW bwb catd above smooth w mph dw, factor := 0,
      dive := diveW bwb catd above smooth w mph dw }
  else { airspeed := 0, velC := 0, factor := 0, dive := 0 }

/-- `compute_partials` by the structural speed, aviary/subsystems/mass/gasp_based/design_load.py:134-330 and 1308-1566. -/
noncomputable def jM (bwb : Bool) (catd : ℤ) (above smooth : Bool) (w mph : ℝ) : Speeds :=
  if catd < 3 then
    { airspeed := 0.85 * diveM bwb catd above smooth w mph, velC := cruiseM bwb catd above smooth w mph, factor := 0,
      dive := diveM bwb catd above smooth w mph }
  else { airspeed := 1 / 1.15, velC := 1.0 * (1 / 1.15), factor := 0, dive := 1.2 * (1 / 1.15) }

/-! ## Load factors -/

/-- Inputs of `LoadFactors`, aviary/subsystems/mass/gasp_based/design_load.py:688-698 and 1610-1636; `r` is the sea level density. -/
structure LF where
  w : ℝ
  s : ℝ
  v9 : ℝ
  vd : ℝ
  m : ℝ
  c : ℝ
  a : ℝ
  r : ℝ

/-- Names of the inputs, aviary/subsystems/mass/gasp_based/design_load.py:688-694. -/
inductive Inp | load | density | v9 | dive | maneuver | chord | slope
  deriving DecidableEq

/-- Reading an input, aviary/subsystems/mass/gasp_based/design_load.py:688-694. -/
def LF.get (p : LF) : Inp → ℝ
  | .load => p.w | .density => p.s | .v9 => p.v9 | .dive => p.vd | .maneuver => p.m | .chord => p.c | .slope => p.a

/-- Changing an input, aviary/subsystems/mass/gasp_based/design_load.py:688-694. -/
def LF.set (p : LF) (i : Inp) (t : ℝ) : LF :=
  match i with
  | .load => { p with w := t } | .density => { p with s := t } | .v9 => { p with v9 := t } | .dive => { p with vd := t }
  | .maneuver => { p with m := t } | .chord => { p with c := t } | .slope => { p with a := t }

/-- `mass_ratio`, aviary/subsystems/mass/gasp_based/design_load.py:700-702 and 1631-1633. -/
noncomputable def LF.mu (p : LF) : ℝ := 2 * p.w / (p.s * p.r * p.c * p.a * 32.2)

/-- `k_load_factor`, aviary/subsystems/mass/gasp_based/design_load.py:703 and 1634. -/
noncomputable def LF.k (p : LF) : ℝ := 0.88 * p.mu / (5.3 + p.mu)

/-- `cruise_load_factor`, aviary/subsystems/mass/gasp_based/design_load.py:704 and 1635-1637. -/
noncomputable def LF.cr (p : LF) : ℝ := 1 + p.k * 50 * p.v9 * p.a / (498 * p.w)

/-- `dive_load_factor`, aviary/subsystems/mass/gasp_based/design_load.py:705-707 and 1638-1640. -/
noncomputable def LF.dv (p : LF) : ℝ := 1 + p.k * 25 * p.vd * p.a / (498 * p.w)

/-- The smooth maximum `b * sigmoidX(a / b, 1, -0.01) + a * sigmoidX(a / b, 1, 0.01)`,
aviary/subsystems/mass/gasp_based/design_load.py:711-713, 722-725, 1643-1646 and 1655-1659. -/
noncomputable def mix (a b : ℝ) : ℝ := b * sigX (a / b) 1 (-0.01) + a * sigX (a / b) 1 0.01

/-- `gust_load_factor`, aviary/subsystems/mass/gasp_based/design_load.py:708-717 and 1642-1651. -/
noncomputable def LF.gust (p : LF) (smooth : Bool) : ℝ :=
  if smooth then mix p.cr p.dv else if p.cr > p.dv then p.cr else p.dv

/-- `ULF`, aviary/subsystems/mass/gasp_based/design_load.py:719-734 and 1612-1668. -/
noncomputable def LF.ulf (p : LF) (fromManeuver smooth : Bool) : ℝ :=
  if fromManeuver then 1.5 * p.m
  else if smooth then 1.5 * mix p.m (p.gust true)
  else if p.gust false > p.m then 1.5 * p.gust false else 1.5 * p.m

/-- `dmass_ratio_d...`, aviary/subsystems/mass/gasp_based/design_load.py:761-772 and 1708-1732. -/
noncomputable def LF.dmu (p : LF) (dw : ℝ) : Inp → ℝ
  | .load => 2 * dw / (p.s * p.r * p.c * p.a * 32.2)
  | .density => -2 * p.w / (p.s ^ 2 * p.r * p.c * p.a * 32.2)
  | .chord => -2 * p.w / (p.s * p.r * p.c ^ 2 * p.a * 32.2)
  | .slope => -2 * p.w / (p.s * p.r * p.c * p.a ^ 2 * 32.2)
  | _ => 0

/-- `dk_load_factor_d...`, aviary/subsystems/mass/gasp_based/design_load.py:774-797 and 1734-1763. -/
noncomputable def LF.dk (p : LF) (dw : ℝ) (i : Inp) : ℝ :=
  dquot (0.88 * p.mu) (5.3 + p.mu) (0.88 * p.dmu dw i) (p.dmu dw i)

/-- `dcruise_load_factor_d...`, aviary/subsystems/mass/gasp_based/design_load.py:799-814 and 1765-1787. -/
noncomputable def LF.dcr (p : LF) (dw : ℝ) : Inp → ℝ
  | .load => dquot (p.k * 50 * p.v9 * p.a) (498 * p.w) (p.dk dw .load * 50 * p.v9 * p.a) (498 * dw)
  | .density => p.dk dw .density * 50 * p.v9 * p.a / (498 * p.w)
  | .chord => p.dk dw .chord * 50 * p.v9 * p.a / (498 * p.w)
  | .slope => (p.dk dw .slope * 50 * p.v9 * p.a + p.k * 50 * p.v9) / (498 * p.w)
  | .v9 => p.k * 50 * p.a / (498 * p.w)
  | .dive => 0
  | .maneuver => 0

/-- `ddive_load_factor_d...`, aviary/subsystems/mass/gasp_based/design_load.py:816-833 and 1789-1814; by the lift curve slope the
second term has the factor 50. -/
noncomputable def LF.ddv (p : LF) (dw : ℝ) : Inp → ℝ
  | .load => dquot (p.k * 25 * p.vd * p.a) (498 * p.w) (p.dk dw .load * 25 * p.vd * p.a) (498 * dw)
  | .density => p.dk dw .density * 25 * p.vd * p.a / (498 * p.w)
  | .chord => p.dk dw .chord * 25 * p.vd * p.a / (498 * p.w)
  | .slope => (p.dk dw .slope * 25 * p.vd * p.a + p.k * 50 * p.vd) / (498 * p.w)
  | .v9 => 0
  | .dive => p.k * 25 * p.a / (498 * p.w)
  | .maneuver => 0

/-- `dgust_load_factor_d...` before the choice, aviary/subsystems/mass/gasp_based/design_load.py:835-852 and 1950-1976. -/
noncomputable def LF.dg0 (p : LF) (dw : ℝ) : Inp → ℝ
  | .load => dquot (p.k * 25 * p.vd * p.a) (498 * p.w) (p.dk dw .load * 25 * p.vd * p.a) (498 * dw)
  | .density => p.dk dw .density * 25 * p.vd * p.a / (498 * p.w)
  | .chord => p.dk dw .chord * 25 * p.vd * p.a / (498 * p.w)
  | .slope => (p.dk dw .slope * 25 * p.vd * p.a + p.k * 25 * p.vd) / (498 * p.w)
  | .dive => p.k * 25 * p.a / (498 * p.w)
  | .v9 => 0
  | .maneuver => 0

/-- `DSigG`, aviary/subsystems/mass/gasp_based/design_load.py:857 and 1820. -/
noncomputable def LF.dG (p : LF) : ℝ := dsigX (p.cr / p.dv) 1 (-0.01)

/-- `DSigH`, aviary/subsystems/mass/gasp_based/design_load.py:858 and 1821. -/
noncomputable def LF.dH (p : LF) : ℝ := dsigX (p.cr / p.dv) 1 0.01

/-- The derivative of the sigmoid in the first term, aviary/subsystems/mass/gasp_based/design_load.py:860-945 and 1823-1938. -/
noncomputable def LF.first (p : LF) : Inp → ℝ
  | .load => p.dG
  | .density => p.dG
  | _ => p.dH

/-- The derivative of the sigmoid in the second term, aviary/subsystems/mass/gasp_based/design_load.py:860-945 and 1823-1938. -/
noncomputable def LF.second (p : LF) : Inp → ℝ
  | .load => p.dG
  | _ => p.dH

/-- `dgust_load_factor_d...`, aviary/subsystems/mass/gasp_based/design_load.py:854-958 and 1817-1976. -/
noncomputable def LF.dgust (p : LF) (smooth : Bool) (dw : ℝ) (i : Inp) : ℝ :=
  if smooth then
    p.ddv dw i * sigX (p.cr / p.dv) 1 (-0.01)
      + p.dv * p.first i * dquot (p.dv - p.cr) p.dv (p.ddv dw i - p.dcr dw i) (p.ddv dw i)
      + p.dcr dw i * sigX (p.cr / p.dv) 1 0.01
      + p.cr * p.second i * dquot (p.cr - p.dv) p.dv (p.dcr dw i - p.ddv dw i) (p.ddv dw i)
  else if p.cr > p.dv then p.dcr dw i else p.dg0 dw i

/-- The smooth part of `dULF_d...` by an input of the gust factor with derivative `dg`,
aviary/subsystems/mass/gasp_based/design_load.py:986-1076 and 2010-2117. -/
noncomputable def jMix (m g dg : ℝ) : ℝ :=
  1.5 * (dg * sigX (m / g) 1 (-0.01) + g * dsigX (m / g) 1 0.01 * dquot (g - m) g dg dg
    + m * dsigX (m / g) 1 0.01 * dquot (m - g) g (-dg) dg)

/-- `compute_partials` of `LoadFactors` and `BWBLoadFactors`, aviary/subsystems/mass/gasp_based/design_load.py:736-1122 and 1670-2180. -/
noncomputable def LF.jUlf (p : LF) (fromManeuver smooth : Bool) (dw : ℝ) (i : Inp) : ℝ :=
  if fromManeuver then if i = .maneuver then 1.5 else 0
  else if smooth then
    match i with
    | .maneuver =>
      1.5 * (p.gust true * dsigX (p.m / p.gust true) 1 0.01 * dquot (p.gust true - p.m) (p.gust true) (-1) 0
        + sigX (p.m / p.gust true) 1 0.01
        + p.m * dsigX (p.m / p.gust true) 1 0.01 * dquot (p.m - p.gust true) (p.gust true) 1 0)
    | .dive => 0
    | _ => jMix p.m (p.gust true) (p.dgust true dw i)
  else if p.gust false > p.m then if i = .maneuver then 0 else 1.5 * p.dgust false dw i
  else if i = .maneuver then 1.5 else 0

/-! ## Landing gear -/

/-- `KSfunction.compute(v, 50)` of OpenMDAO with the largest value `gm`, called at
aviary/subsystems/mass/gasp_based/landing.py:89 and 119. -/
noncomputable def ksWith {n : ℕ} (gm : ℝ) (v : Fin n → ℝ) : ℝ := gm + 1 / 50 * log (∑ i, exp (50 * (v i - gm)))

/-- `KSfunction.derivatives(v, 50)` of OpenMDAO, called at aviary/subsystems/mass/gasp_based/landing.py:120. -/
noncomputable def dksWith {n : ℕ} (gm : ℝ) (v : Fin n → ℝ) (i : Fin n) : ℝ :=
  1 / (50 * ∑ j, exp (50 * (v j - gm))) * (50 * exp (50 * (v i - gm)))

/-- Inputs of `TotalLandingGearMass` for at least one type of engine, aviary/subsystems/mass/gasp_based/landing.py:78-83. -/
structure Gear (n : ℕ) where
  loc : ℝ
  c : ℝ
  touch : ℝ
  cr : Fin (n + 1) → ℝ
  nd : Fin (n + 1) → ℝ
  ck : ℝ

/-- `GRAV_ENGLISH_LBM`, aviary/constants.py:41. -/
noncomputable def grav : ℝ := 1.0

/-- The required heights, aviary/subsystems/mass/gasp_based/landing.py:89 and 118. -/
def Gear.val {n : ℕ} (g : Gear n) (i : Fin (n + 1)) : ℝ := (1 + g.cr i) * g.nd i

/-- The largest required height (`np.max` in OpenMDAO), aviary/subsystems/mass/gasp_based/landing.py:89. -/
noncomputable def Gear.top {n : ℕ} (g : Gear n) : ℝ := Finset.univ.sup' Finset.univ_nonempty g.val

/-- `gear_height_temp`, aviary/subsystems/mass/gasp_based/landing.py:89-93. -/
noncomputable def Gear.h {n : ℕ} (g : Gear n) : ℝ := ksWith g.top g.val

/-- `dKS`, aviary/subsystems/mass/gasp_based/landing.py:120. -/
noncomputable def Gear.dks {n : ℕ} (g : Gear n) (i : Fin (n + 1)) : ℝ := dksWith g.top g.val i

/-- The limit of 6 feet, aviary/subsystems/mass/gasp_based/landing.py:94-96. -/
noncomputable def height (h : ℝ) : ℝ := h * sigX h 6 (1 / 320) + 6 * sigX h 6 (-1 / 320)

/-- `c_gear_mass_modified / c_gear_mass`, aviary/subsystems/mass/gasp_based/landing.py:103-105. -/
noncomputable def factor (loc gh : ℝ) : ℝ :=
  0.85 * (1 + 0.1765 * gh / 6) * sigX loc 0.005 (-0.01 / 320) + sigX loc 0.005 (0.01 / 320)

/-- `compute`, aviary/subsystems/mass/gasp_based/landing.py:77-109; the factor `c_gear_mass` is taken out of the sum. -/
noncomputable def Gear.mass {n : ℕ} (g : Gear n) : ℝ :=
  g.ck * (g.c * factor g.loc (height g.h) * (g.touch * grav)) / grav

/-- `dGH_dCR`, aviary/subsystems/mass/gasp_based/landing.py:132-138. -/
noncomputable def Gear.dghCR {n : ℕ} (g : Gear n) (i : Fin (n + 1)) : ℝ :=
  (sigX g.h 6 (1 / 320) * g.nd i + g.h * dsigX g.h 6 (1 / 320) * g.nd i + 6 * dsigX g.h 6 (1 / 320) * -g.nd i) * g.dks i

/-- `dGH_dND`, aviary/subsystems/mass/gasp_based/landing.py:140-143. -/
noncomputable def Gear.dghND {n : ℕ} (g : Gear n) (i : Fin (n + 1)) : ℝ :=
  (sigX g.h 6 (1 / 320) * (1 + g.cr i) + g.h * dsigX g.h 6 (1 / 320) * (1 + g.cr i)) * g.dks i
    + 6 * dsigX g.h 6 (1 / 320) * (1 + g.cr i)

/-- The entry for an input of the height, aviary/subsystems/mass/gasp_based/landing.py:149-169. -/
noncomputable def Gear.jH {n : ℕ} (g : Gear n) (dgh : ℝ) : ℝ :=
  g.c * 0.85 * 0.1765 / 6 * dgh * (g.touch * grav) * sigX g.loc 0.005 (-0.01 / 320) / grav

/-- The entry for the mass coefficient, aviary/subsystems/mass/gasp_based/landing.py:127-130, 159-161. -/
noncomputable def Gear.jC {n : ℕ} (g : Gear n) : ℝ := factor g.loc (height g.h) * (g.touch * grav) / grav

/-- The entry for the touchdown mass, aviary/subsystems/mass/gasp_based/landing.py:171-173. -/
noncomputable def Gear.jT {n : ℕ} (g : Gear n) : ℝ := g.c * factor g.loc (height g.h)

/-- The entry for the scaler, aviary/subsystems/mass/gasp_based/landing.py:175-177. -/
noncomputable def Gear.jS {n : ℕ} (g : Gear n) : ℝ := g.c * factor g.loc (height g.h) * (g.touch * grav) / grav

end Verif.GaspLoads
