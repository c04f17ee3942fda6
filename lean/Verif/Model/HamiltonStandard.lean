import Verif.Model.Dict
import Mathlib.Algebra.Order.Field.Basic
import Mathlib.Data.List.Range

/-!
# Table interpolation of the propeller performance code

Models `_unint` and `_biquad` (aviary/subsystems/propulsion/propeller/hamilton_standard.py:12-231), the input checks of
`PreHamiltonStandard.compute` (lines 535-552) and the secant iteration of `HamiltonStandard.compute` (lines 833-917). An array is
a function on indices together with its length; numbers are an ordered field.
-/

namespace Verif.HS

variable {α : Type} [Field α] [LinearOrder α]

/-- aviary/subsystems/propulsion/propeller/hamilton_standard.py:57-76: the four weights applied to four values. -/
def blend (x0 x1 x2 x3 y0 y1 y2 y3 ra x : α) : α :=
  let rb := 1 - ra
  let p1 := x1 - x0
  let p2 := x2 - x1
  let p3 := x3 - x2
  let p4 := p1 + p2
  let p5 := p2 + p3
  let d1 := x - x0
  let d2 := x - x1
  let d3 := x - x2
  let d4 := x - x3
  let c1 := (ra * d2 * d3) / (p1 * p4)
  let c2 := -(ra * d1 * d3) / (p1 * p2) + (rb * d3 * d4) / (p2 * p5)
  let c3 := (ra * d1 * d2) / (p2 * p4) - (rb * d2 * d4) / (p2 * p3)
  let c4 := (rb * d2 * d3) / (p5 * p3)
  y0 * c1 + y1 * c2 + y2 * c3 + y3 * c4

/-- First index of `1 … n-1` whose abscissa is not below `x`, the loop of aviary/subsystems/propulsion/propeller/hamilton_standard.py:31-39. -/
def search (n : ℕ) (xa : ℕ → α) (x : α) : Option ℕ :=
  (List.range n).find? (fun i => decide (1 ≤ i ∧ x ≤ xa i))

/-- aviary/subsystems/propulsion/propeller/hamilton_standard.py:47-56: first of the four points and weight of the left parabola, for the interval ending at `idx`. -/
def pick (n : ℕ) (xa : ℕ → α) (idx : ℕ) (x : α) : ℕ × α :=
  if idx = 1 then (0, 1)
  else if idx = n - 1 then (n - 4, 0)
  else (idx - 2, (xa idx - x) / (xa idx - xa (idx - 1)))

/-- `_unint(xa, ya, x)`, aviary/subsystems/propulsion/propeller/hamilton_standard.py:12-78: value and `extrap_flag`. `n = len(xa)`. -/
def unint (n : ℕ) (xa ya : ℕ → α) (x : α) : α × ℕ :=
  if x < xa 0 then (ya 0, 1)
  else if xa 0 = x then (ya 0, 0)
  else match search n xa x with
    | none => (ya (n - 1), 2)
    | some idx =>
      if xa idx = x then (ya idx, 0)
      else
        let q := pick n xa idx x
        let j := q.1
        (blend (xa j) (xa (j + 1)) (xa (j + 2)) (xa (j + 3)) (ya j) (ya (j + 1)) (ya (j + 2)) (ya (j + 3)) q.2 x, 0)

/-- aviary/subsystems/propulsion/propeller/hamilton_standard.py:112-128 / 170-186: the weights of `_biquad`. -/
def weights (x0 x1 x2 x3 ra x : α) : α × α × α × α :=
  let rb := 1 - ra
  let p1 := x1 - x0
  let p2 := x2 - x1
  let p3 := x3 - x2
  let p4 := p1 + p2
  let p5 := p2 + p3
  let d1 := x - x0
  let d2 := x - x1
  let d3 := x - x2
  let d4 := x - x3
  (ra / p1 * d2 / p4 * d3,
   -ra / p1 * d1 / p2 * d3 + rb / p2 * d3 / p5 * d4,
   ra / p2 * d1 / p4 * d2 - rb / p2 * d2 / p3 * d4,
   rb / p5 * d2 / p3 * d3)

/-- First index of `j1 … j2` whose entry is not below `x`, aviary/subsystems/propulsion/propeller/hamilton_standard.py:108-112. -/
def searchT (T : ℕ → α) (j1 j2 : ℕ) (x : α) : Option ℕ :=
  (List.range (j2 + 1)).find? (fun j => decide (j1 ≤ j ∧ x ≤ T j))

/-- aviary/subsystems/propulsion/propeller/hamilton_standard.py:100-139 (and 175-207): clamped argument, limit flag, first of the four points, weight of the left parabola. -/
def locate (T : ℕ → α) (j1 j2 : ℕ) (x : α) : α × ℕ × ℕ × α :=
  match searchT T j1 j2 x with
  | none => (T j2, 2, j2 - 3, 0)
  | some jn =>
    let c : α × ℕ := if jn < j1 + 1 then (if T jn ≠ x then (T j1, 1) else (x, 0)) else (x, 0)
    if jn ≤ j1 + 1 then (c.1, c.2, j1, 1)
    else if jn = j2 then (c.1, c.2, j2 - 3, 0)
    else (c.1, c.2, jn - 2, (T jn - c.1) / (T jn - T (jn - 1)))

/-- `_biquad(T, i, xi, yi)` with `nx = int(T[i])`, `ny = int(T[i+1])`, aviary/subsystems/propulsion/propeller/hamilton_standard.py:81-231: value and limit flag. -/
def biquad (T : ℕ → α) (i nx ny : ℕ) (xi yi : α) : α × ℕ :=
  let j1 := i + 2
  let j2 := j1 + nx - 1
  let lx := locate T j1 j2 xi
  let jx := lx.2.2.1
  let cx := weights (T jx) (T (jx + 1)) (T (jx + 2)) (T (jx + 3)) lx.2.2.2 lx.1
  if ny = 0 then
    let jy := jx + nx
    (cx.1 * T jy + cx.2.1 * T (jy + 1) + cx.2.2.1 * T (jy + 2) + cx.2.2.2 * T (jy + 3), lx.2.1)
  else
    let j3 := j2 + 1
    let j4 := j3 + ny - 1
    let ly := locate T j3 j4 yi
    let jy1 := ly.2.2.1
    let jy := (j4 + 1) + (jx - i - 2) * ny + (jy1 - j3)
    let yt := fun m : ℕ => cx.1 * T (jy + m) + cx.2.1 * T (jy + m + ny) + cx.2.2.1 * T (jy + m + 2 * ny) +
      cx.2.2.2 * T (jy + m + 3 * ny)
    let cy := weights (T jy1) (T (jy1 + 1)) (T (jy1 + 2)) (T (jy1 + 3)) ly.2.2.2 ly.1
    (cy.1 * yt 0 + cy.2.1 * yt 1 + cy.2.2.1 * yt 2 + cy.2.2.2 * yt 3, lx.2.1 + 3 * ly.2.1)

/-! ## Input checks, lines 535-552 -/

/-- `any(v)` of an array, as the number it is compared as: 1 if some entry is nonzero, else 0.
Part of the model of aviary/subsystems/propulsion/propeller/hamilton_standard.py:535-552. -/
def anyNum (v : List α) : α := if v.any (fun t => decide (t ≠ 0)) then 1 else 0

/-- Which `AnalysisError` is raised by `PreHamiltonStandard.compute`, if any.
Part of the model of aviary/subsystems/propulsion/propeller/hamilton_standard.py:535-552. -/
def preChecks (diam : α) (tip sos dens shp : List α) : Option String :=
  if diam ≤ 0 then some "diameter"
  else if anyNum tip ≤ 0 then some "tip speed"
  else if anyNum sos ≤ 0 then some "speed of sound"
  else if anyNum dens ≤ 0 then some "density"
  else if anyNum shp < 0 then some "shaft power"
  else none

/-! ## Secant iteration for the thrust coefficient, lines 829-917 -/

/-- Result of the iteration. `zero` carries the coefficient evaluated last. `nan` stands for a division by zero (numpy yields inf or nan and goes on).
Part of the model of aviary/subsystems/propulsion/propeller/hamilton_standard.py:829-917. -/
inductive CtResult (α : Type)
  | found (ct : α)
  | zero (last : α)
  | notConverged
  | nan
  deriving DecidableEq

/-- Passes `il, il+1, …, 9`; `prev = (CTG[il-1], CTG1[il-1])`, `cur = CTG[il]`, `f ct = CT_Eff - CTTT[ibb]`, `target = CTTT[ibb]`.
The first argument is the number of passes left.
Part of the model of aviary/subsystems/propulsion/propeller/hamilton_standard.py:829-917. -/
def secant (f : α → α) (target : α) : ℕ → Option (α × α) → α → α → CtResult α
  | 0, _, _, _ => .notConverged
  | k + 1, prev, cur, next =>
    if target = 0 then .nan
    else if |f cur / target| < 1 / 1000 then .found cur
    else match prev with
      | none => secant f target k (some (cur, f cur)) next next
      | some (c0, g0) =>
        if f cur - g0 = 0 then .nan
        else
          let new := -g0 * (cur - c0) / (f cur - g0) + c0
          if new ≤ 0 then .zero cur
          else secant f target k (some (cur, f cur)) new new

/-- The loop with its start values 0.1 and 0.2 and ten passes, aviary/subsystems/propulsion/propeller/hamilton_standard.py:829-917. -/
def findCt (f : α → α) (target : α) : CtResult α := secant f target 10 none (1 / 10) (2 / 10)

end Verif.HS
