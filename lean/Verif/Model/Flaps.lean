import Mathlib.Analysis.SpecialFunctions.Trigonometric.Arctan
import Mathlib.Analysis.SpecialFunctions.Sqrt
import Mathlib.Data.Real.Basic

/-! # The flap model of GASP

aviary/subsystems/aerodynamics/gasp_based/flaps_model: `aviary/subsystems/aerodynamics/gasp_based/flaps_model/basic_calculations.py`, `aviary/subsystems/aerodynamics/gasp_based/flaps_model/meta_model.py`, `aviary/subsystems/aerodynamics/gasp_based/flaps_model/Cl_max.py`,
`aviary/subsystems/aerodynamics/gasp_based/flaps_model/L_and_D_increments.py` and the table of optimum deflections of `aviary/subsystems/aerodynamics/gasp_based/flaps_model/flaps_model.py`.  Numbers are real numbers. -/

namespace Verif.Flaps

/-- The line through two points.
Part of the model of aviary/subsystems/aerodynamics/gasp_based/flaps_model/meta_model.py:794-839. -/
noncomputable def line (p q : ℝ × ℝ) (x : ℝ) : ℝ := p.2 + (q.2 - p.2) / (q.1 - p.1) * (x - p.1)

open Classical in
/-- `om.MetaModelStructuredComp` with `method='1D-slinear', extrapolate=True`: the line through the neighbouring points,
beyond the ends that of the last two (a single point is not accepted by the component; here it is constant).
Part of the model of aviary/subsystems/aerodynamics/gasp_based/flaps_model/meta_model.py:794-839. -/
noncomputable def lin : List (ℝ × ℝ) → ℝ → ℝ
  | [], _ => 0
  | [p], _ => p.2
  | [p, q], x => line p q x
  | p :: q :: r :: s, x => if x ≤ q.1 then line p q x else lin (q :: r :: s) x

/-- `method='scipy_slinear'` on two inputs: linear along the second, then along the first.
Part of the model of aviary/subsystems/aerodynamics/gasp_based/flaps_model/meta_model.py:794-839. -/
noncomputable def lin2 (t : List (ℝ × List (ℝ × ℝ))) (x y : ℝ) : ℝ := lin (t.map fun r => (r.1, lin r.2 y)) x

/-- `FlapType`, aviary/variable_info/enums.py:150-159. -/
inductive FlapType | plain | split | single | double | triple | fowler | doubleFowler
  deriving DecidableEq

/-! ## Tables -/

/-- `VDEL1`, plain flaps, aviary/subsystems/aerodynamics/gasp_based/flaps_model/meta_model.py:33-39, 42-48. -/
noncomputable def vdel1Plain : List (ℝ × ℝ) :=
  [(0, 0), (1 / 10, 8 / 25), (1 / 5, 33 / 50), (3 / 10, 1), (2 / 5, 33 / 25), (1 / 2, 17 / 10)]

/-- `VDEL1`, other flaps, aviary/subsystems/aerodynamics/gasp_based/flaps_model/meta_model.py:33-39, 51-57. -/
noncomputable def vdel1Other : List (ℝ × ℝ) :=
  [(0, 0), (1 / 10, 6 / 25), (1 / 5, 11 / 20), (3 / 10, 1), (2 / 5, 8 / 5), (1 / 2, 11 / 5)]

/-- `VDEL2`, aviary/subsystems/aerodynamics/gasp_based/flaps_model/meta_model.py:71-77, 79-97. -/
noncomputable def vdel2 : List (ℝ × ℝ) :=
  [(0, 0), (1 / 4, 9 / 50), (1 / 2, 37 / 100), (3 / 4, 13 / 20), (1, 1), (3 / 2, 197 / 100), (2, 86 / 25), (9 /
   4, 83 / 20), (5 / 2, 91 / 20), (11 / 4, 241 / 50), (3, 5)]

/-- `VDEL3`, aviary/subsystems/aerodynamics/gasp_based/flaps_model/meta_model.py:110-124, 126-143: for every point of the first grid the table over the
second. -/
noncomputable def vdel3 : List (ℝ × List (ℝ × ℝ)) :=
  [ (0, [(0, 0), (33 / 100, 0), (1, 0)]),
    (1 / 5, [(0, 2 / 5), (33 / 100, 7 / 25), (1, 1 / 5)]),
    (2 / 5, [(0, 67 / 100), (33 / 100, 13 / 25), (1, 2 / 5)]),
    (3 / 5, [(0, 43 / 50), (33 / 100, 18 / 25), (1, 3 / 5)]),
    (7 / 10, [(0, 23 / 25), (33 / 100, 81 / 100), (1, 7 / 10)]),
    (4 / 5, [(0, 24 / 25), (33 / 100, 22 / 25), (1, 4 / 5)]),
    (9 / 10, [(0, 99 / 100), (33 / 100, 19 / 20), (1, 9 / 10)]),
    (1, [(0, 1), (33 / 100, 1), (1, 1)]) ]

/-- `VLAM1`, aviary/subsystems/aerodynamics/gasp_based/flaps_model/meta_model.py:159-184, 186-211. -/
noncomputable def vlam1 : List (ℝ × ℝ) :=
  [(0, 0), (1 / 5, 34 / 25), (3 / 5, 147 / 100), (1, 149 / 100), (7 / 5, 147 / 100), (2, 31 / 25), (5 / 2, 97 /
   100), (3, 91 / 100), (7 / 2, 22 / 25), (4, 87 / 100), (43 / 10, 43 / 50), (5, 87 / 100), (7, 23 / 25), (9,
   24 / 25), (10, 97 / 100), (56 / 5, 99 / 100), (12, 1), (20, 1)]

/-- `VLAM2`, aviary/subsystems/aerodynamics/gasp_based/flaps_model/meta_model.py:223-246, 248-271. -/
noncomputable def vlam2 : List (ℝ × ℝ) :=
  [(0, 4 / 5), (1 / 25, 41 / 50), (3 / 50, 21 / 25), (7 / 100, 17 / 20), (2 / 25, 22 / 25), (1 / 10, 1), (11 /
   100, 21 / 20), (3 / 25, 107 / 100), (7 / 50, 11 / 10), (3 / 20, 111 / 100), (4 / 25, 111 / 100), (9 / 50,
   11 / 10), (1 / 5, 107 / 100), (11 / 50, 51 / 50), (6 / 25, 24 / 25), (7 / 25, 4 / 5)]

/-- `VLAM3`, aviary/subsystems/aerodynamics/gasp_based/flaps_model/meta_model.py:283-308, 310-335. -/
noncomputable def vlam3 : List (ℝ × ℝ) :=
  [(0, 0), (1 / 5, 1 / 10), (3 / 5, 6 / 25), (1, 33 / 100), (7 / 5, 41 / 100), (2, 1 / 2), (5 / 2, 14 / 25), (3,
   61 / 100), (7 / 2, 33 / 50), (4, 7 / 10), (43 / 10, 18 / 25), (5, 77 / 100), (7, 22 / 25), (9, 19 / 20),
   (10, 97 / 100), (56 / 5, 99 / 100), (12, 1), (20, 1)]

/-- `VLAM4`, plain flaps, aviary/subsystems/aerodynamics/gasp_based/flaps_model/meta_model.py:349-372, 375-398. -/
noncomputable def vlam4Plain : List (ℝ × ℝ) :=
  [(0, 5 / 4), (1 / 25, 117 / 100), (3 / 50, 27 / 25), (7 / 100, 21 / 20), (2 / 25, 51 / 50), (1 / 10, 1), (11 /
   100, 51 / 50), (3 / 25, 21 / 20), (7 / 50, 6 / 5), (3 / 20, 34 / 25), (4 / 25, 8 / 5), (9 / 50, 187 / 100),
   (1 / 5, 101 / 50), (11 / 50, 53 / 25), (6 / 25, 109 / 50), (7 / 25, 11 / 5)]

/-- `VLAM4`, other flaps, aviary/subsystems/aerodynamics/gasp_based/flaps_model/meta_model.py:349-372, 401-424. -/
noncomputable def vlam4Other : List (ℝ × ℝ) :=
  [(0, 21 / 25), (1 / 25, 43 / 50), (3 / 50, 89 / 100), (7 / 100, 91 / 100), (2 / 25, 47 / 50), (1 / 10, 1), (11
   / 100, 26 / 25), (3 / 25, 11 / 10), (7 / 50, 63 / 50), (3 / 20, 133 / 100), (4 / 25, 139 / 100), (9 / 50,
   149 / 100), (1 / 5, 31 / 20), (11 / 50, 79 / 50), (6 / 25, 159 / 100), (7 / 25, 8 / 5)]

/-- `VLAM5`, plain flaps, aviary/subsystems/aerodynamics/gasp_based/flaps_model/meta_model.py:436-442, 445-451. -/
noncomputable def vlam5Plain : List (ℝ × ℝ) :=
  [(0, 0), (1 / 10, 18 / 25), (1 / 5, 47 / 50), (3 / 10, 1), (2 / 5, 19 / 20), (1 / 2, 73 / 100)]

/-- `VLAM5`, slotted flaps, aviary/subsystems/aerodynamics/gasp_based/flaps_model/meta_model.py:436-442, 458-464. -/
noncomputable def vlam5Slotted : List (ℝ × ℝ) :=
  [(0, 0), (1 / 10, 23 / 40), (1 / 5, 83 / 100), (3 / 10, 1), (2 / 5, 213 / 200), (1 / 2, 109 / 100)]

/-- `VLAM5`, fowler flaps, aviary/subsystems/aerodynamics/gasp_based/flaps_model/meta_model.py:436-442, 467-473. -/
noncomputable def vlam5Fowler : List (ℝ × ℝ) :=
  [(0, 0), (1 / 10, 41 / 100), (1 / 5, 73 / 100), (3 / 10, 1), (2 / 5, 61 / 50), (1 / 2, 7 / 5)]

/-- `VLAM6`, plain flaps, aviary/subsystems/aerodynamics/gasp_based/flaps_model/meta_model.py:487-509, 512-534. -/
noncomputable def vlam6Plain : List (ℝ × ℝ) :=
  [(0, 0), (5, 3 / 25), (10, 23 / 100), (15, 17 / 50), (20, 43 / 100), (25, 53 / 100), (30, 31 / 50), (35, 71 /
   100), (38, 19 / 25), (40, 4 / 5), (42, 41 / 50), (44, 43 / 50), (50, 47 / 50), (55, 49 / 50), (60, 1)]

/-- `VLAM6`, slotted flaps, aviary/subsystems/aerodynamics/gasp_based/flaps_model/meta_model.py:487-509, 541-563. -/
noncomputable def vlam6Slotted : List (ℝ × ℝ) :=
  [(0, 0), (5, 11 / 50), (10, 41 / 100), (15, 57 / 100), (20, 71 / 100), (25, 83 / 100), (30, 91 / 100), (35, 39
   / 40), (38, 199 / 200), (40, 1), (42, 997 / 1000), (44, 124 / 125), (50, 189 / 200), (55, 17 / 20), (60, 3
   / 4)]

/-- `VLAM6`, fowler flaps, aviary/subsystems/aerodynamics/gasp_based/flaps_model/meta_model.py:487-509, 566-588. -/
noncomputable def vlam6Fowler : List (ℝ × ℝ) :=
  [(0, 0), (5, 1 / 4), (10, 23 / 50), (15, 13 / 20), (20, 4 / 5), (25, 23 / 25), (30, 1), (35, 107 / 100), (38,
   11 / 10), (40, 111 / 100), (42, 11 / 10), (44, 107 / 100), (50, 17 / 20), (55, 14 / 25), (60, 1 / 5)]

/-- `VLAM7`, aviary/subsystems/aerodynamics/gasp_based/flaps_model/meta_model.py:605-611, 613-619. -/
noncomputable def vlam7 : List (ℝ × ℝ) :=
  [(0, 0), (1 / 5, 1 / 4), (2 / 5, 47 / 100), (3 / 5, 69 / 100), (4 / 5, 87 / 100), (9 / 10, 47 / 50), (1, 1)]

/-- `VLAM10`, aviary/subsystems/aerodynamics/gasp_based/flaps_model/meta_model.py:633-654, 656-677. -/
noncomputable def vlam10 : List (ℝ × ℝ) :=
  [(0, 0), (1 / 5, 17 / 50), (2 / 5, 31 / 50), (1 / 2, 37 / 50), (3 / 5, 83 / 100), (7 / 10, 9 / 10), (4 / 5, 24
   / 25), (9 / 10, 99 / 100), (1, 1), (11 / 10, 99 / 100), (6 / 5, 24 / 25), (7 / 5, 81 / 100), (8 / 5, 49 /
   100), (17 / 10, 11 / 50)]

/-- `VLAM11`, aviary/subsystems/aerodynamics/gasp_based/flaps_model/meta_model.py:691-697, 699-705. -/
noncomputable def vlam11 : List (ℝ × ℝ) :=
  [(0, 0), (1 / 5, 1 / 20), (3 / 10, 9 / 100), (2 / 5, 3 / 20), (47 / 100, 1 / 5), (1 / 2, 23 / 100), (1, 1)]

/-- `VLAM13`, aviary/subsystems/aerodynamics/gasp_based/flaps_model/meta_model.py:719-740, 742-763. -/
noncomputable def vlam13 : List (ℝ × ℝ) :=
  [(1, 7 / 10), (2, 7 / 10), (5, 3 / 4), (10, 81 / 100), (30, 37 / 40), (60, 1), (90, 26 / 25), (120, 21 / 20),
   (170, 103 / 100), (250, 1), (300, 49 / 50), (500, 93 / 100), (1000, 9 / 10), (10000, 9 / 10)]

/-- `VLAM14`, aviary/subsystems/aerodynamics/gasp_based/flaps_model/meta_model.py:777-783, 785-792. -/
noncomputable def vlam14 : List (ℝ × ℝ) :=
  [(0, 1), (1 / 5, 99 / 100), (2 / 5, 47 / 50), (3 / 5, 87 / 100), (4 / 5, 39 / 50), (1, 33 / 50)]

/-- `fus_lift`, aviary/subsystems/aerodynamics/gasp_based/flaps_model/meta_model.py:804-818, 820-839: for every point of the first grid the table over the
second. -/
noncomputable def fusLift : List (ℝ × List (ℝ × ℝ)) :=
  [ (0, [(1 / 10, 0), (1 / 5, 0), (3 / 10, 0), (2 / 5, 0), (1 / 2, 0)]),
    (1 / 20, [(1 / 10, 23 / 500), (1 / 5, 9 / 500), (3 / 10, -1 / 500), (2 / 5, -9 / 1000), (1 / 2, -1 / 40)]),
    (1 / 10, [(1 / 10, 7 / 100), (1 / 5, 1 / 40), (3 / 10, -7 / 1000), (2 / 5, -3 / 100), (1 / 2, -6 / 125)]),
    (3 / 25, [(1 / 10, 19 / 250), (1 / 5, 13 / 500), (3 / 10, -1 / 100), (2 / 5, -19 / 500), (1 / 2, -57 / 1000)]),
    (3 / 20, [(1 / 10, 2 / 25), (1 / 5, 23 / 1000), (3 / 10, -9 / 500), (2 / 5, -51 / 1000), (1 / 2, -7 / 100)]),
    (1 / 5, [(1 / 10, 73 / 1000), (1 / 5, 1 / 250), (3 / 10, -7 / 200), (2 / 5, -73 / 1000), (1 / 2, -9 / 100)]),
    (1 / 4, [(1 / 10, 53 / 1000), (1 / 5, -11 / 500), (3 / 10, -3 / 50), (2 / 5, -47 / 500), (1 / 2, -109 / 1000)]),
    (3 / 10, [(1 / 10, 3 / 100), (1 / 5, -47 / 1000), (3 / 10, -21 / 250), (2 / 5, -14 / 125), (1 / 2, -63 / 500)]),
    (2 / 5, [(1 / 10, -9 / 500), (1 / 5, -47 / 500), (3 / 10, -63 / 500), (2 / 5, -29 / 200), (1 / 2, -31 / 200)]),
    (1 / 2, [(1 / 10, -17 / 250), (1 / 5, -13 / 100), (3 / 10, -4 / 25), (2 / 5, -43 / 250), (1 / 2, -9 / 50)]) ]

/-- Choice of the table of `VDEL1`, aviary/subsystems/aerodynamics/gasp_based/flaps_model/meta_model.py:41-58. -/
noncomputable def vdel1 : FlapType → List (ℝ × ℝ)
  | .plain | .split => vdel1Plain
  | _ => vdel1Other

/-- Choice of the table of `VLAM4`, aviary/subsystems/aerodynamics/gasp_based/flaps_model/meta_model.py:374-424. -/
noncomputable def vlam4 : FlapType → List (ℝ × ℝ)
  | .plain | .split => vlam4Plain
  | _ => vlam4Other

/-- Choice of the table of `VLAM5`, aviary/subsystems/aerodynamics/gasp_based/flaps_model/meta_model.py:444-473. -/
noncomputable def vlam5 : FlapType → List (ℝ × ℝ)
  | .plain | .split => vlam5Plain
  | .single | .double | .triple => vlam5Slotted
  | _ => vlam5Fowler

/-- Choice of the table of `VLAM6`, aviary/subsystems/aerodynamics/gasp_based/flaps_model/meta_model.py:511-591. -/
noncomputable def vlam6 : FlapType → List (ℝ × ℝ)
  | .plain | .split => vlam6Plain
  | .single | .double | .triple => vlam6Slotted
  | .fowler | .doubleFowler => vlam6Fowler

/-- `optimum_flap_defls`, aviary/subsystems/aerodynamics/gasp_based/flaps_model/flaps_model.py:26-35. -/
noncomputable def optimum : FlapType → ℝ
  | .plain => 60 | .split => 60 | .single => 40 | .double => 55 | .triple => 55 | .fowler => 30
  | .doubleFowler => 30

/-! ## Components -/

/-- The geometry read by the flap model, aviary/subsystems/aerodynamics/gasp_based/flaps_model/basic_calculations.py:18-31. -/
structure Geom where
  sweep : ℝ
  AR : ℝ
  flapChord : ℝ
  taper : ℝ
  centerChord : ℝ
  cabinWidth : ℝ
  tcRoot : ℝ
  span : ℝ
  slatChord : ℝ
  rootChord : ℝ
  fusLen : ℝ
  sweepLE : ℝ
  tc : ℝ
  flapSpan : ℝ
  avgChord : ℝ

/-- `DBALE`, aviary/subsystems/aerodynamics/gasp_based/flaps_model/basic_calculations.py:170-173. -/
noncomputable def dbale (g : Geom) : ℝ :=
  2 * √(g.tcRoot * g.centerChord * (g.cabinWidth - g.tcRoot * g.centerChord)) + 4 / 10

/-- `VLAM8`, aviary/subsystems/aerodynamics/gasp_based/flaps_model/basic_calculations.py:163, 178. -/
noncomputable def vlam8 (g : Geom) : ℝ := Real.cos (g.sweep * (17453 / 1000000)) ^ 3

/-- `body_to_span_ratio`, aviary/subsystems/aerodynamics/gasp_based/flaps_model/basic_calculations.py:179. -/
noncomputable def bodyToSpan (g : Geom) : ℝ := dbale g / g.span

/-- `VDEL4`, aviary/subsystems/aerodynamics/gasp_based/flaps_model/basic_calculations.py:165-168, 180. -/
noncomputable def vdel4 (g : Geom) : ℝ :=
  Real.cos (Real.arctan (Real.tan (g.sweep * (17453 / 1000000))
    - 4 / g.AR * ((75 / 100 - g.flapChord) * (1 - g.taper) / (1 + g.taper))))

/-- `VDEL5`, aviary/subsystems/aerodynamics/gasp_based/flaps_model/basic_calculations.py:181. -/
noncomputable def vdel5 (g : Geom) : ℝ := 1 - bodyToSpan g

/-- `VLAM9`, aviary/subsystems/aerodynamics/gasp_based/flaps_model/basic_calculations.py:182. -/
noncomputable def vlam9 (g : Geom) : ℝ := 665 / 100 * g.slatChord

/-- `SLAT_SPAN_RATIO`, aviary/subsystems/aerodynamics/gasp_based/flaps_model/basic_calculations.py:183. -/
noncomputable def slatSpan (g : Geom) : ℝ := 99 / 100 - dbale g / g.span

/-- `chord_to_body_ratio`, aviary/subsystems/aerodynamics/gasp_based/flaps_model/basic_calculations.py:184. -/
noncomputable def chordToBody (g : Geom) : ℝ := g.rootChord / g.fusLen

/-- `VLAM12`, aviary/subsystems/aerodynamics/gasp_based/flaps_model/basic_calculations.py:175, 185. -/
noncomputable def vlam12 (g : Geom) : ℝ := Real.cos (g.sweepLE - 5 / (57296 / 1000)) ^ 3

/-- Deflections and reference increments, aviary/subsystems/aerodynamics/gasp_based/flaps_model/basic_calculations.py:193-207, aviary/subsystems/aerodynamics/gasp_based/flaps_model/Cl_max.py:25, 93-94, aviary/subsystems/aerodynamics/gasp_based/flaps_model/L_and_D_increments.py:31. -/
structure Setting where
  slat : ℝ
  slatOpt : ℝ
  flap : ℝ
  flapOpt : ℝ
  maxLiftRef : ℝ
  flapLift : ℝ
  slatLift : ℝ
  flapDrag : ℝ

/-- The sum before the corrections by Reynolds and Mach number, aviary/subsystems/aerodynamics/gasp_based/flaps_model/Cl_max.py:255-259, with the factors of
aviary/subsystems/aerodynamics/gasp_based/flaps_model/meta_model.py and aviary/subsystems/aerodynamics/gasp_based/flaps_model/basic_calculations.py:244-245. -/
noncomputable def basicLift (k : FlapType) (g : Geom) (s : Setting) : ℝ :=
  s.maxLiftRef * lin vlam1 g.AR * lin vlam2 g.tc
    + s.flapLift * lin vlam3 g.AR * lin (vlam4 k) g.tc * lin (vlam5 k) g.flapChord * lin (vlam6 k) s.flap
      * lin vlam7 g.flapSpan * vlam8 g
    + s.slatLift * vlam9 g * lin vlam10 (s.slat / s.slatOpt) * lin vlam11 (slatSpan g) * vlam12 g

/-- `fus_lift`, aviary/subsystems/aerodynamics/gasp_based/flaps_model/meta_model.py:794-839. -/
noncomputable def fusLiftOf (g : Geom) : ℝ := lin2 fusLift (bodyToSpan g) (chordToBody g)

/-- `CL_max`, aviary/subsystems/aerodynamics/gasp_based/flaps_model/Cl_max.py:255-259, for given corrections. -/
noncomputable def clMax (k : FlapType) (g : Geom) (s : Setting) (v13 v14 : ℝ) : ℝ :=
  basicLift k g s * v13 * v14 + fusLiftOf g

/-- Atmosphere and wing loading, aviary/subsystems/aerodynamics/gasp_based/flaps_model/Cl_max.py:77-87, 118-122. -/
structure Air where
  sos : ℝ
  wingLoading : ℝ
  P : ℝ
  visc : ℝ

/-- The Mach number at stall, aviary/subsystems/aerodynamics/gasp_based/flaps_model/Cl_max.py:261-263. -/
noncomputable def machOf (a : Air) (cl : ℝ) : ℝ := √(a.wingLoading / cl / (7 / 10) / a.P)

/-- `reynolds`, aviary/subsystems/aerodynamics/gasp_based/flaps_model/Cl_max.py:265-266. -/
noncomputable def reynolds (a : Air) (g : Geom) (mach : ℝ) : ℝ := g.avgChord * (mach * a.sos) / a.visc / 100000

/-- A converged state of the group: all components hold at once, aviary/subsystems/aerodynamics/gasp_based/flaps_model/flaps_model.py:39-138. -/
structure Converged (k : FlapType) (g : Geom) (s : Setting) (a : Air) (cl mach : ℝ) : Prop where
  lift : cl = clMax k g s (lin vlam13 (reynolds a g mach)) (lin vlam14 mach)
  stall : mach = machOf a cl

/-- `delta_CD`, aviary/subsystems/aerodynamics/gasp_based/flaps_model/L_and_D_increments.py:153. -/
noncomputable def deltaCD (k : FlapType) (g : Geom) (s : Setting) : ℝ :=
  s.flapDrag * lin (vdel1 k) g.flapChord * lin vdel2 (s.flap / s.flapOpt) * lin2 vdel3 g.flapSpan g.taper * vdel4 g
    * vdel5 g

/-- `delta_CL`, aviary/subsystems/aerodynamics/gasp_based/flaps_model/L_and_D_increments.py:154-164. -/
noncomputable def deltaCL (k : FlapType) (g : Geom) (s : Setting) (v13 v14 : ℝ) : ℝ :=
  s.flapLift * lin vlam3 g.AR * lin (vlam4 k) g.tc * lin (vlam5 k) g.flapChord * lin (vlam6 k) s.flap
    * lin vlam7 g.flapSpan * vlam8 g * v13 * v14

end Verif.Flaps
