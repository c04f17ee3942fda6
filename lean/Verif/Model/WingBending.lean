import Verif.Model.Flaps
import Mathlib.Analysis.SpecialFunctions.Trigonometric.Basic
import Mathlib.Analysis.SpecialFunctions.Pow.Real
import Mathlib.Algebra.Order.Floor.Defs
import Mathlib.Data.Real.Archimedean

/-! # The detailed wing bending factor of FLOPS

aviary/subsystems/mass/flops_based/wing_detailed.py: integration stations, load, bending moment, bending material and the
relief by the engines.  Numbers are real numbers, arrays are lists.  Interpolation of `slinear` is `Flaps.lin`. -/

namespace Verif.WingBend
open Verif.Flaps (lin)

open Classical in
/-- `load_intensity_by_factor` at one station, aviary/subsystems/mass/flops_based/wing_detailed.py:11-47; `none` is the `AnalysisError`. -/
noncomputable def loadIntensity (f x : ℝ) : Option ℝ :=
  if f = 1 then some (1 - x)
  else if f = 2 then some √(1 - x ^ 2)
  else if f = 3 then some 1
  else if 1 < f ∧ f < 2 then some ((f - 1) * √(1 - x ^ 2) + (2 - f) * (1 - x))
  else if 2 < f ∧ f < 3 then some ((3 - f) * √(1 - x ^ 2) + (f - 2) * 1)
  else none

/-- `np.linspace`. Part of the model of aviary/subsystems/mass/flops_based/wing_detailed.py:149-160. -/
noncomputable def linspace (a b : ℝ) (n : ℕ) (endpoint : Bool) : List ℝ :=
  (List.range n).map fun (i : ℕ) => a + i * ((b - a) / (if endpoint then (n : ℝ) - 1 else n))

/-- `stations_per_section` of a section of width `d`, before the point added to the last, aviary/subsystems/mass/flops_based/wing_detailed.py:149. -/
noncomputable def perSection (target d : ℝ) : ℕ := ⌊|d / target + 1 / 2|⌋₊

/-- `target_dy`, aviary/subsystems/mass/flops_based/wing_detailed.py:148. -/
noncomputable def targetDy (s : List ℝ) (n : ℕ) : ℝ := (s.getLastD 0 - s.headD 0) / n

/-- `integration_stations`, aviary/subsystems/mass/flops_based/wing_detailed.py:149-160. -/
noncomputable def stations (t : ℝ) : List ℝ → List ℝ
  | [a, b] => linspace a b (perSection t (b - a) + 1) true
  | a :: b :: c :: r => linspace a b (perSection t (b - a)) false ++ stations t (b :: c :: r)
  | _ => []

/-- `sweep_int_stations`, aviary/subsystems/mass/flops_based/wing_detailed.py:161-163. -/
noncomputable def sweeps (t : ℝ) : List ℝ → List ℝ → List ℝ
  | [a, b], s :: _ => List.replicate (perSection t (b - a) + 1) s
  | a :: b :: c :: r, s :: ss => List.replicate (perSection t (b - a)) s ++ sweeps t (b :: c :: r) ss
  | _, _ => []

/-- A function of neighbouring elements: `f(x[:-1], x[1:])`.
Part of the model of aviary/subsystems/mass/flops_based/wing_detailed.py:165-168. -/
def pairs {α β : Type} (f : α → α → β) (l : List α) : List β := List.zipWith f l l.tail

/-- `avg_sweep`, aviary/subsystems/mass/flops_based/wing_detailed.py:165-168: the first interval is left out. -/
noncomputable def avgSweep (y sw : List ℝ) : ℝ :=
  (List.zipWith (fun (a : ℝ) s => a * s) (pairs (fun a b => ((b - a) + 2 * a) * (b - a)) y.tail) sw.tail.dropLast).sum

/-- `avg_sweep` of the blended wing body, aviary/subsystems/mass/flops_based/wing_detailed.py:458-461. -/
noncomputable def avgSweepBWB (y sw : List ℝ) : ℝ :=
  (List.zipWith (fun (a : ℝ) s => a * s) (pairs (fun a b => ((b - a) + 2 * a) * (b - a)) y) sw.dropLast).sum

/-- The data of an integration station: place, chord, load intensity, thickness to chord ratio.
Part of the model of aviary/subsystems/mass/flops_based/wing_detailed.py:181-188. -/
structure Node where
  y : ℝ
  c : ℝ
  p : ℝ
  t : ℝ

/-- `del_load` of an interval, aviary/subsystems/mass/flops_based/wing_detailed.py:181-188. -/
noncomputable def delLoad (a b : Node) : ℝ :=
  (b.y - a.y) * (a.c * (2 * a.p + b.p) + b.c * (2 * b.p + a.p)) / 6

/-- `del_moment` of an interval, aviary/subsystems/mass/flops_based/wing_detailed.py:192-199. -/
noncomputable def delMoment (a b : Node) : ℝ :=
  (b.y - a.y) ^ 2 * (a.c * (a.p + b.p) + b.c * (3 * b.p + a.p)) / 12

/-- `np.cumsum`. Part of the model of aviary/subsystems/mass/flops_based/wing_detailed.py:213. -/
noncomputable def cumsum (l : List ℝ) : List ℝ := (l.scanl (· + ·) 0).tail

/-- `np.cumsum(x[::-1])[::-1]`. Part of the model of aviary/subsystems/mass/flops_based/wing_detailed.py:213. -/
noncomputable def suffix (l : List ℝ) : List ℝ := (cumsum l.reverse).reverse

/-- `load_path_length`, aviary/subsystems/mass/flops_based/wing_detailed.py:201-203. -/
noncomputable def outboard (l : List ℝ) : List ℝ := (0 :: cumsum l.reverse.dropLast).reverse

/-- `csw`, aviary/subsystems/mass/flops_based/wing_detailed.py:204. -/
noncomputable def cswOf (sw : List ℝ) : List ℝ := sw.dropLast.map fun s => 1 / Real.cos (s * Real.pi / 180)

/-- `el`, aviary/subsystems/mass/flops_based/wing_detailed.py:190. -/
noncomputable def el (l : List Node) : ℝ := (pairs delLoad l).sum

/-- `emi`, aviary/subsystems/mass/flops_based/wing_detailed.py:205. -/
noncomputable def emi (l : List Node) (csw : List ℝ) : List ℝ :=
  List.zipWith (· * ·)
    (List.zipWith (· + ·) (pairs delMoment l)
      (List.zipWith (· * ·) (pairs (fun a b => b.y - a.y) l) (outboard (pairs delLoad l)))) csw

/-- `total_moment`, aviary/subsystems/mass/flops_based/wing_detailed.py:213. -/
noncomputable def totalMoment (l : List Node) (csw : List ℝ) : List ℝ := suffix (emi l csw)

/-- `x * csw / (chord[:-1] * tc[:-1])`, aviary/subsystems/mass/flops_based/wing_detailed.py:215, 271. -/
noncomputable def material (l : List Node) (csw m : List ℝ) : List ℝ :=
  List.zipWith (· / ·) (List.zipWith (· * ·) m csw) (l.dropLast.map fun a => a.c * a.t)

/-- `np.sum((x[:-1] + x[1:]) * dy[:-1] * 0.5)`, aviary/subsystems/mass/flops_based/wing_detailed.py:217, 273. -/
noncomputable def trapz (l : List Node) (x : List ℝ) : ℝ :=
  (List.zipWith (fun s d => s * d * (1 / 2)) (pairs (· + ·) x) (pairs (fun a b => b.y - a.y) l).dropLast).sum

/-- `btb`, aviary/subsystems/mass/flops_based/wing_detailed.py:217-221. -/
noncomputable def btb (l : List Node) (csw : List ℝ) : ℝ :=
  4 * trapz l (material l csw (totalMoment l csw)) / el l

open Classical in
/-- `bt`, aviary/subsystems/mass/flops_based/wing_detailed.py:223-232. -/
noncomputable def bt (l : List Node) (csw : List ℝ) (ar fstrt faert avg : ℝ) : ℝ :=
  let sa := Real.sin (avg * Real.pi / 180)
  let caya := if ar ≤ 5 then 0 else ar - 5
  btb l csw / (ar ^ (1 / 4 * fstrt)
    * (1 + (1 / 2 * faert - 16 / 100 * fstrt) * sa ^ 2 + 3 / 100 * caya * (1 - 1 / 2 * faert) * sa))

open Classical in
/-- `delme`, aviary/subsystems/mass/flops_based/wing_detailed.py:259-266.  The stations increase, so that the last one before the engine is found by
counting. -/
noncomputable def delme (y : List ℝ) (loc : ℝ) : List ℝ :=
  let k := (y.takeWhile (· < loc)).length - 1
  (pairs (fun a b => (b - a) * (if b < loc then 1 else 0)) y).set k (loc - y.getD k 0)

/-- `bte`, aviary/subsystems/mass/flops_based/wing_detailed.py:268-273. -/
noncomputable def bte (l : List Node) (csw : List ℝ) (loc : ℝ) : ℝ :=
  8 * trapz l (material l csw (suffix (List.zipWith (· * ·) (delme (l.map Node.y) loc) csw)))

open Classical in
/-- The factor of one type of engines whose first one is at `loc`, aviary/subsystems/mass/flops_based/wing_detailed.py:252-277. -/
noncomputable def typeFactor (l : List Node) (csw : List ℝ) (bt gross loc pod : ℝ) : ℝ :=
  if loc ≤ (l.map Node.y).headD 0 then 1
  else if (l.map Node.y).getLastD 0 ≤ loc then 84 / 100
  else 1 - bte l csw loc / bt * pod / gross

/-- The least of the places `engine_locations[idx:idx2]`; `none` is the `IndexError` for an empty slice,
aviary/subsystems/mass/flops_based/wing_detailed.py:247, 252. -/
noncomputable def firstOf : List ℝ → Option ℝ
  | [] => none
  | a :: l => some (l.foldl min a)

/-- `inertia_factor`, aviary/subsystems/mass/flops_based/wing_detailed.py:236-280, for number of wing engines and pod mass of each type and the factor of a
type. -/
noncomputable def factors (F : ℝ → ℝ → ℝ) : List (ℕ × ℝ) → List ℝ → Option (List ℝ)
  | [], _ => some []
  | (n, pod) :: r, locs =>
    if 1 < n then do
      let loc ← firstOf (locs.take (n / 2))
      let q ← factors F r (locs.drop (n / 2))
      return F loc pod :: q
    else do
      let q ← factors F r locs
      return 0 :: q

open Classical in
/-- The product with its bound, aviary/subsystems/mass/flops_based/wing_detailed.py:284-286. -/
noncomputable def bounded (q : List ℝ) : ℝ := if q.prod < 84 / 100 then 84 / 100 else q.prod

/-- `ENG_POD_INERTIA_FACTOR`, aviary/subsystems/mass/flops_based/wing_detailed.py:236-288. -/
noncomputable def inertia (F : ℝ → ℝ → ℝ) (e : List (ℕ × ℝ)) (locs : List ℝ) : Option ℝ :=
  (factors F e locs).map bounded

/-- `ENG_POD_INERTIA_FACTOR` of the blended wing body, aviary/subsystems/mass/flops_based/wing_detailed.py:543-598. -/
noncomputable def inertiaBWB (F : ℝ → ℝ → ℝ) (e : List (ℕ × ℝ)) (locs : List ℝ) : Option ℝ :=
  if 0 < (e.map Prod.fst).sum then inertia F e locs else some 1

open Classical in
/-- The factor applied to the interpolated chords, aviary/subsystems/mass/flops_based/wing_detailed.py:177-179. -/
noncomputable def chordScale (ar arref : ℝ) : ℝ := if 0 < arref then arref / ar else 1

open Classical in
/-- The factor applied to the interpolated thickness, aviary/subsystems/mass/flops_based/wing_detailed.py:210-211. -/
noncomputable def tcScale (tc tcref : ℝ) : ℝ := if 0 < tcref then tc / tcref else 1

open Classical in
/-- `ar_scale_factor` of the blended wing body, aviary/subsystems/mass/flops_based/wing_detailed.py:410-416. -/
noncomputable def arScale (ar arref : ℝ) : ℝ := if arref / ar = 0 then 1 else arref / ar

open Classical in
/-- `chord_mod` at a station of the blended wing body, aviary/subsystems/mass/flops_based/wing_detailed.py:418-425. -/
noncomputable def chordMod (span ar arref x : ℝ) : ℝ := if 5 < x then 2 * x / span else x * arScale ar arref

/-- The chord of the blended wing body at a station of the input, aviary/subsystems/mass/flops_based/wing_detailed.py:418-425, 466-471 (an input station
where the interpolation gives the value itself). -/
noncomputable def chordBWB (span ar arref x : ℝ) : ℝ := chordMod span ar arref x * arScale ar arref

/-- The thickness ratio of the blended wing body at a station of the input, aviary/subsystems/mass/flops_based/wing_detailed.py:433, 499-507. -/
noncomputable def tcBWB (tc tcref x : ℝ) : ℝ := x * tc / tcref * tcScale tc tcref

end Verif.WingBend
