import Verif.Model.Flaps

/-! # Wing distributions of the blended wing body

aviary/subsystems/geometry/flops_based/wing_detailed_bwb.py.  Numbers are real numbers, arrays are lists. -/

namespace Verif.BwbWing

/-- The scalar inputs of `BWBUpdateDetailedWingDist`, aviary/subsystems/geometry/flops_based/wing_detailed_bwb.py:48-55. -/
structure Body where
  width : ℝ
  osspan : ℝ
  length : ℝ
  clTc : ℝ
  sideTc : ℝ
  rootChord : ℝ

/-- `wingspan`, aviary/subsystems/geometry/flops_based/wing_detailed_bwb.py:162. -/
noncomputable def span (b : Body) : ℝ := b.width + b.osspan * 2

/-- `rate_span`, aviary/subsystems/geometry/flops_based/wing_detailed_bwb.py:172. -/
noncomputable def rate (b : Body) : ℝ := (span b - b.width) / span b

open Classical in
/-- `BWB_CHORD_PER_SEMISPAN_DISTRIBUTION`, aviary/subsystems/geometry/flops_based/wing_detailed_bwb.py:176-182, 197-199. -/
noncomputable def updChord (root : ℤ) (b : Body) (chord : List ℝ) : List ℝ :=
  if root < 1 then b.length :: b.rootChord :: chord.tail.map fun x => if x < 5 then x * rate b else x else chord

/-- `BWB_THICKNESS_TO_CHORD_DISTRIBUTION`, aviary/subsystems/geometry/flops_based/wing_detailed_bwb.py:184-188, 200-202. -/
noncomputable def updTc (root : ℤ) (b : Body) (tc : List ℝ) : List ℝ :=
  if root < 1 then b.clTc :: b.sideTc :: tc.tail else tc

/-- `BWB_LOAD_PATH_SWEEP_DISTRIBUTION`, aviary/subsystems/geometry/flops_based/wing_detailed_bwb.py:190-193, 203-205. -/
noncomputable def updSweep (root : ℤ) (sweep : List ℝ) : List ℝ := if root < 1 then 0 :: sweep else sweep

/-- The entries declared for the thickness, aviary/subsystems/geometry/flops_based/wing_detailed_bwb.py:66-70, 95-103, 140-146. -/
def tcRows (root : ℤ) (stations : ℕ) : List (ℕ × ℕ) :=
  if root < 1 then (List.range (stations + 1 - 2)).map fun i => (i + 2, i + 1)
  else (List.range stations).map fun i => (i, i)

/-- The entries declared for the sweep, aviary/subsystems/geometry/flops_based/wing_detailed_bwb.py:66-70, 121-129, 148-155. -/
def sweepRows (root : ℤ) (stations : ℕ) : List (ℕ × ℕ) :=
  if root < 1 then (List.range (stations + 1 - 3)).map fun i => (i + 2, i + 1)
  else (List.range (stations - 1)).map fun i => (i, i)

/-! ## BWBComputeDetailedWingDist -/

/-- `wing_tip_chord`, aviary/subsystems/geometry/flops_based/wing_detailed_bwb.py:283. -/
noncomputable def tip (w os : ℝ) : ℝ := 6 / 100 * (w + os * 2)

/-- `tr_out`, aviary/subsystems/geometry/flops_based/wing_detailed_bwb.py:287. -/
noncomputable def trOut (w os rc : ℝ) : ℝ := tip w os / rc

/-- `ar_out`, aviary/subsystems/geometry/flops_based/wing_detailed_bwb.py:288. -/
noncomputable def arOut (w os rc : ℝ) : ℝ := 2 * (2 * os) / (tip w os + rc)

/-- `angle`, aviary/subsystems/geometry/flops_based/wing_detailed_bwb.py:290. -/
noncomputable def angle (w os rc sw : ℝ) : ℝ :=
  Real.tan (sw / (572958 / 10000)) - 2 * (1 - trOut w os rc) / (1 + trOut w os rc) / arOut w os rc

/-- `swp_ld_path`, aviary/subsystems/geometry/flops_based/wing_detailed_bwb.py:291. -/
noncomputable def swpLd (w os rc sw : ℝ) : ℝ := 572958 / 10000 * Real.arctan (angle w os rc sw)

/-- Acceptance and the three distributions, aviary/subsystems/geometry/flops_based/wing_detailed_bwb.py:268-302; `none` is the `ValueError`. -/
noncomputable def computeDist (stations : ℕ) (w os len rc sideTc tc sw : ℝ) : Option (List ℝ × List ℝ × List ℝ) :=
  if stations ≠ 2 then none
  else some ([len, rc, tip w os], [sideTc, sideTc, tc], [0, swpLd w os rc sw])

/-- `dswp_ld_path_dsweep`, aviary/subsystems/geometry/flops_based/wing_detailed_bwb.py:336. -/
noncomputable def dSweep (w os rc sw : ℝ) : ℝ :=
  1 / (1 + angle w os rc sw ^ 2) / Real.cos (sw / (572958 / 10000)) ^ 2

/-- The chain of the partials by span and root chord, aviary/subsystems/geometry/flops_based/wing_detailed_bwb.py:348-355, 363-370. -/
noncomputable def chain (w os rc sw dtr dar : ℝ) : ℝ :=
  572958 / 10000 / (1 + angle w os rc sw ^ 2)
    * (4 * dtr / (1 + trOut w os rc) ^ 2 / arOut w os rc
      + 2 * (2 / (1 + trOut w os rc) - 1) * dar / arOut w os rc ^ 2)

/-- `2 * dswp_ld_path_dspan`, aviary/subsystems/geometry/flops_based/wing_detailed_bwb.py:342-359. -/
noncomputable def dOs (w os rc sw : ℝ) : ℝ :=
  2 * chain w os rc sw (6 / 100 / rc) (2 * (tip w os + rc - 6 / 100 * (w + 2 * os - w)) / (tip w os + rc) ^ 2)

/-- `dswp_ld_path_droot_chord`, aviary/subsystems/geometry/flops_based/wing_detailed_bwb.py:361-370. -/
noncomputable def dRc (w os rc sw : ℝ) : ℝ :=
  chain w os rc sw (-tip w os / rc ^ 2) (-2 * (w + 2 * os - w) / (tip w os + rc) ^ 2)

/-- `dswp_ld_path_dwidth`, aviary/subsystems/geometry/flops_based/wing_detailed_bwb.py:379-391. -/
noncomputable def dW (w os rc sw : ℝ) : ℝ :=
  let dtr := 6 / 100 / rc;
  let dar := -4 * (6 / 100) * os / (6 / 100 * (w + 2 * os) + rc) ^ 2;
  (-2) * (572958 / 10000) / (1 + angle w os rc sw ^ 2)
    * (-2 * (dtr * arOut w os rc + (1 + trOut w os rc) * dar) / ((1 + trOut w os rc) * arOut w os rc) ^ 2
      + dar / arOut w os rc ^ 2)

/-! ## BWBWingPrelim -/

open Classical in
/-- `bwb_input_station_dist`, aviary/subsystems/geometry/flops_based/wing_detailed_bwb.py:441-458. -/
noncomputable def prelimStations (root : ℤ) (w sp : ℝ) (inp : List ℝ) : List ℝ :=
  if root < 1 then
    0 :: w / 2 :: inp.tail.map fun x => if x ≤ 1 then x * ((sp - w) / sp) + w / sp else x + w / 2
  else inp

open Classical in
/-- A chord in feet, aviary/subsystems/geometry/flops_based/wing_detailed_bwb.py:467-470, 480-483. -/
noncomputable def chordFt (sp x : ℝ) : ℝ := if x ≤ 5 then x * sp / 2 else x

open Classical in
/-- A station in feet, aviary/subsystems/geometry/flops_based/wing_detailed_bwb.py:472-475, 484-487. -/
noncomputable def stationFt (sp x : ℝ) : ℝ := if x ≤ 11 / 10 then x * sp / 2 else x

/-- The loop over the other stations with `Y1`, `C1` and `ssm`, aviary/subsystems/geometry/flops_based/wing_detailed_bwb.py:479-491. -/
noncomputable def loop (sp : ℝ) : List (ℝ × ℝ) → ℝ → ℝ → ℝ → ℝ
  | [], _, _, ssm => ssm
  | (y, c) :: r, y1, c1, ssm =>
    loop sp r (stationFt sp y) (chordFt sp c) (ssm + (stationFt sp y - y1) * (c1 + chordFt sp c))

/-- `ssm`, aviary/subsystems/geometry/flops_based/wing_detailed_bwb.py:463-491, for stations with chords. -/
noncomputable def area (sp : ℝ) : List (ℝ × ℝ) → ℝ
  | [] => 0
  | (y, c) :: r => loop sp r (stationFt sp y) (chordFt sp c) 0

/-- `ar`, aviary/subsystems/geometry/flops_based/wing_detailed_bwb.py:493. -/
noncomputable def aspect (sp glove : ℝ) (l : List (ℝ × ℝ)) : ℝ := sp ^ 2 / (area sp l - glove)

/-- `pct_load`, aviary/subsystems/geometry/flops_based/wing_detailed_bwb.py:501. -/
noncomputable def pctLoad (w sp : ℝ) : ℝ := (1 - w / sp) ^ 2

end Verif.BwbWing
