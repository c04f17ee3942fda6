import Mathlib.Analysis.SpecialFunctions.Sqrt
import Mathlib.Data.List.Range
import Mathlib.Algebra.Order.Ring.Rat

/-!
# Nacelle fineness ratios and the vectors of the drag components

Models `NacelleCharacteristicLength` (aviary/subsystems/geometry/flops_based/characteristic_lengths.py:297-428) and
`MuxComponent` (aviary/subsystems/aerodynamics/flops_based/mux_component.py:8-377).
-/

namespace Verif.NacIdx

/-! ## Nacelle characteristic length -/

/-- `np.where(num_eng >= 1)`, aviary/subsystems/geometry/flops_based/characteristic_lengths.py:373, for the engine
counts `num`. -/
def numIdx (num : List ℕ) : List ℕ := (List.range num.length).filter fun i => decide (num.getD i 0 ≥ 1)

/-- `np.where(adjusted_avg_diam[num_idx] > 0)`: positions in the selected part,
aviary/subsystems/geometry/flops_based/characteristic_lengths.py:377. -/
def posIdx (num : List ℕ) (diam : ℕ → ℚ) : List ℕ :=
  (List.range (numIdx num).length).filter fun p => decide (0 < diam ((numIdx num).getD p 0))

/-- `calc_idx`, aviary/subsystems/geometry/flops_based/characteristic_lengths.py:377. -/
def calcIdx (num : List ℕ) (diam : ℕ → ℚ) : List ℕ := (posIdx num diam).filter fun p => decide (p ∈ numIdx num)

/-- Entry `i` of `CHARACTERISTIC_LENGTH`, aviary/subsystems/geometry/flops_based/characteristic_lengths.py:370-374;
`len` and `diam` are the adjusted length and diameter. -/
def charLen (num : List ℕ) (len : ℕ → ℚ) (i : ℕ) : ℚ := if i ∈ numIdx num then len i else 0

/-- Entry `i` of `FINENESS`, aviary/subsystems/geometry/flops_based/characteristic_lengths.py:371-382; `none` stands
for the infinite or undefined result of a division by 0. -/
def fineness (num : List ℕ) (len diam : ℕ → ℚ) (i : ℕ) : Option ℚ :=
  if i ∈ calcIdx num diam then (if diam i = 0 then none else some (len i / diam i))
  else if i ∈ numIdx num then some 1 else some 0

/-- Assignment `a[idx] = b` of an array of `n` entries to `m` selected entries: numpy raises `ValueError` unless the
sizes agree or `n` is 1. Part of the model of
aviary/subsystems/geometry/flops_based/characteristic_lengths.py:401-410. -/
def assigns (m n : ℕ) : Bool := decide (n = m) || decide (n = 1)

/-- Whether `compute_partials` runs without an exception,
aviary/subsystems/geometry/flops_based/characteristic_lengths.py:384-410: the right sides have one entry per
engine type, the selected part one per type with an engine. -/
def partialsRun (num : List ℕ) : Bool := assigns (numIdx num).length num.length

/-- Characteristic length of a type with engines as a function of length, thrust and reference thrust,
aviary/subsystems/geometry/flops_based/characteristic_lengths.py:362-366. -/
noncomputable def lenOf (l t r : ℝ) : ℝ := l * √(t / r)

/-- Fineness ratio of a type with engines and a positive diameter,
aviary/subsystems/geometry/flops_based/characteristic_lengths.py:362-366, 379. -/
noncomputable def fineOf (l d t r : ℝ) : ℝ := (l * √(t / r)) / (d * √(t / r))

/-- `deriv_char_len`, aviary/subsystems/geometry/flops_based/characteristic_lengths.py:402. -/
noncomputable def dLenL (t r : ℝ) : ℝ := 1 * √(t / r)
/-- `deriv_char_thrust`, aviary/subsystems/geometry/flops_based/characteristic_lengths.py:403. -/
noncomputable def dLenT (l t r : ℝ) : ℝ := 0.5 * l / √(t / r) / r
/-- `deriv_char_sls`, aviary/subsystems/geometry/flops_based/characteristic_lengths.py:404-406. -/
noncomputable def dLenR (l t r : ℝ) : ℝ := -0.5 * l / √(t / r) * t / r ^ 2
/-- `deriv_fine_len`, aviary/subsystems/geometry/flops_based/characteristic_lengths.py:408. -/
noncomputable def dFineL (d t r : ℝ) : ℝ := 1 / (d * √(t / r)) * √(t / r)
/-- `deriv_fine_diam`, aviary/subsystems/geometry/flops_based/characteristic_lengths.py:409. -/
noncomputable def dFineD (l d : ℝ) : ℝ := -l / d ^ 2

/-! ## Mux -/

/-- The inputs of one of the five vectors, aviary/subsystems/aerodynamics/flops_based/mux_component.py:32-117. -/
inductive Src
  | wing | htail | vtail | fuselage | nacelle
  deriving DecidableEq, Repr

/-- Options read by the component, aviary/subsystems/aerodynamics/flops_based/mux_component.py:26-31. -/
structure Counts where
  h : ℕ
  v : ℕ
  f : ℕ
  engines : List ℕ

/-- `num_nacelles`, aviary/subsystems/aerodynamics/flops_based/mux_component.py:78. -/
def Counts.nac (c : Counts) : ℕ := c.engines.sum

/-- `nc` of `setup`: the size of the outputs, aviary/subsystems/aerodynamics/flops_based/mux_component.py:32-117. -/
def Counts.nc (c : Counts) : ℕ :=
  let nc := 1
  let nc := if c.h > 0 then nc + c.h else nc
  let nc := if c.v > 0 then nc + c.v else nc
  let nc := if c.f > 0 then nc + c.f else nc
  if c.nac > 0 then nc + c.nac else nc

/-- Inputs added by `setup`, aviary/subsystems/aerodynamics/flops_based/mux_component.py:32-117. -/
def Counts.declared (c : Counts) : List Src :=
  [.wing] ++ (if c.h > 0 then [.htail] else []) ++ (if c.v > 0 then [.vtail] else []) ++
    (if c.f > 0 then [.fuselage] else []) ++ (if c.nac > 0 then [.nacelle] else [])

/-- The list built by `np.append` and `np.tile` for input entries `i`,
aviary/subsystems/aerodynamics/flops_based/mux_component.py:363-369: which entry of the nacelle input fills position `j`. -/
def tiled : List ℕ → ℕ → List ℕ
  | [], _ => []
  | n :: rest, i => (if n > 0 then List.replicate n i else []) ++ tiled rest (i + 1)

/-- `cols` of `setup_partials`, aviary/subsystems/aerodynamics/flops_based/mux_component.py:259-261. -/
def colsOf (engines : List ℕ) : List ℕ :=
  (engines.zipIdx.map fun p => List.replicate p.1 p.2).flatten

/-- A block of assignments `out[ic + j] = in[0]` for `j < n`,
aviary/subsystems/aerodynamics/flops_based/mux_component.py:301-314: row, input and entry of the input. -/
def block (ic n : ℕ) (s : Src) : List (ℕ × Src × ℕ) := (List.range n).map fun j => (ic + j, s, 0)

/-- All assignments of `compute` to one of the outputs, in order,
aviary/subsystems/aerodynamics/flops_based/mux_component.py:290-377; `none` is the `KeyError` of reading an input that
was not added. -/
def Counts.writes (c : Counts) : Option (List (ℕ × Src × ℕ)) :=
  let ic := 1
  let wh := if c.h > 0 then block ic c.h .htail else []
  let ic := if c.h > 0 then ic + c.h else ic
  let wv := if c.v > 0 then block ic c.v .vtail else []
  let ic := if c.v > 0 then ic + c.v else ic
  let wf := if c.f > 0 then block ic c.f .fuselage else []
  let ic := if c.f > 0 then ic + c.f else ic
  if .nacelle ∈ c.declared then
    let wn := if c.nac > 0 then
        (List.range c.nac).map fun j => (ic + j, Src.nacelle, (tiled c.engines 0).getD j 0) else []
    some ((0, .wing, 0) :: (wh ++ wv ++ wf ++ wn))
  else none

/-- Rows and columns declared by `setup_partials` with value 1 for one of the outputs,
aviary/subsystems/aerodynamics/flops_based/mux_component.py:119-288: row, input, column. -/
def Counts.partials (c : Counts) : List (ℕ × Src × ℕ) :=
  let ic := 1
  let ph := if c.h > 0 then block ic c.h .htail else []
  let ic := if c.h > 0 then ic + c.h else ic
  let pv := if c.v > 0 then block ic c.v .vtail else []
  let ic := if c.v > 0 then ic + c.v else ic
  let pf := if c.f > 0 then block ic c.f .fuselage else []
  let ic := if c.f > 0 then ic + c.f else ic
  let pn := if c.nac > 0 then
      ((List.range c.nac).zip (colsOf c.engines)).map fun p => (ic + p.1, Src.nacelle, p.2) else []
  (0, .wing, 0) :: (ph ++ pv ++ pf ++ pn)

end Verif.NacIdx
