import Mathlib.Analysis.SpecialFunctions.Pow.Real
import Mathlib.Algebra.BigOperators.Fin

/-!
# Model of the throttle allocator, engine scaling/sizing and fuel summation components
(aviary/subsystems/propulsion/throttle_allocation.py, aviary/subsystems/propulsion/engine_scaling.py, aviary/subsystems/propulsion/engine_sizing.py,
aviary/subsystems/energy/fuel_summation.py)

Arrays are functions of (flattened, C order) indices; `m` is `num_engine_type - 1`.
-/

namespace Verif
noncomputable section
open Classical

/-! ## ThrottleAllocator, aviary/subsystems/propulsion/throttle_allocation.py:110-165 -/

/-- `sum_alloc` of node `i` in DYNAMIC mode, aviary/subsystems/propulsion/throttle_allocation.py:120: sum of row `i` of the
`(nn, m)` array, given flattened. -/
def sumAllocDyn (m : ℕ) (alloc : ℕ → ℝ) (i : ℕ) : ℝ := ∑ j ∈ Finset.range m, alloc (i * m + j)

/-- `sum_alloc` otherwise, aviary/subsystems/propulsion/throttle_allocation.py:125. -/
def sumAllocStat (m : ℕ) (alloc : ℕ → ℝ) : ℝ := ∑ j ∈ Finset.range m, alloc j

/-- `outputs[THROTTLE].ravel()[r]` in DYNAMIC mode, aviary/subsystems/propulsion/throttle_allocation.py:117-127;
row `r` is node `r / (m+1)`, engine `r % (m+1)`. -/
def throttleDyn (m : ℕ) (agg alloc : ℕ → ℝ) (r : ℕ) : ℝ :=
  if r % (m + 1) < m then agg (r / (m + 1)) * alloc (r / (m + 1) * m + r % (m + 1))
  else agg (r / (m + 1)) * (1 - sumAllocDyn m alloc (r / (m + 1)))

/-- `outputs[THROTTLE].ravel()[r]` in FIXED and STATIC mode, aviary/subsystems/propulsion/throttle_allocation.py:121-127. -/
def throttleStat (m : ℕ) (agg alloc : ℕ → ℝ) (r : ℕ) : ℝ :=
  if r % (m + 1) < m then agg (r / (m + 1)) * alloc (r % (m + 1))
  else agg (r / (m + 1)) * (1 - sumAllocStat m alloc)

/-- Declared rows/cols of THROTTLE wrt aggregate_throttle, aviary/subsystems/propulsion/throttle_allocation.py:67-74
(`rows = arange`, `cols = repeat(arange(nn), num_engine_type)`). -/
def aggRow (_m : ℕ) (t : ℕ) : ℕ := t
/-- `aggCol`: part of the model of aviary/subsystems/propulsion/throttle_allocation.py:67-74. -/
def aggCol (m : ℕ) (t : ℕ) : ℕ := t / (m + 1)

/-- `allocs.T.ravel()`, aviary/subsystems/propulsion/throttle_allocation.py:141-143. -/
def aggPartialDyn (m : ℕ) (alloc : ℕ → ℝ) (t : ℕ) : ℝ :=
  if t % (m + 1) < m then alloc (t / (m + 1) * m + t % (m + 1)) else 1 - sumAllocDyn m alloc (t / (m + 1))
/-- `np.tile(allocs, nn)`, aviary/subsystems/propulsion/throttle_allocation.py:154-158. -/
def aggPartialStat (m : ℕ) (alloc : ℕ → ℝ) (t : ℕ) : ℝ :=
  if t % (m + 1) < m then alloc (t % (m + 1)) else 1 - sumAllocStat m alloc

/-- `np.vstack((np.eye(ne), -np.ones(ne))).ravel()`, aviary/subsystems/propulsion/throttle_allocation.py:146-148. -/
def allocMask (m : ℕ) (s : ℕ) : ℝ := if s / m < m then (if s / m = s % m then 1 else 0) else -1

/-- `np.outer(agg_throttle, mask)` flattened, aviary/subsystems/propulsion/throttle_allocation.py:150-151, 164-165. -/
def allocPartial (m : ℕ) (agg : ℕ → ℝ) (t : ℕ) : ℝ :=
  agg (t / ((m + 1) * m)) * allocMask m (t % ((m + 1) * m))

/-- Declared rows/cols of THROTTLE wrt throttle_allocations in DYNAMIC mode,
aviary/subsystems/propulsion/throttle_allocation.py:77-84 (`a = m+1`, `b = m`): `tile(repeat(arange(a), b), nn) + a*repeat(arange(nn), a*b)`
and `tile(tile(arange(b), a), nn) + b*repeat(arange(nn), a*b)`. -/
def allocRowDyn (m : ℕ) (t : ℕ) : ℕ := (t % ((m + 1) * m)) / m + (m + 1) * (t / ((m + 1) * m))
/-- `allocColDyn`: part of the model of aviary/subsystems/propulsion/throttle_allocation.py:77-84. -/
def allocColDyn (m : ℕ) (t : ℕ) : ℕ := (t % ((m + 1) * m)) % m + m * (t / ((m + 1) * m))

/-- Dense Jacobian of shape `(nn*(m+1), m)` in the other modes: flat entry `t` is row `t / m`, column
`t % m`, aviary/subsystems/propulsion/throttle_allocation.py:97-99, 164-165. -/
def allocRowStat (m : ℕ) (t : ℕ) : ℕ := t / m
/-- `allocColStat`: part of the model of aviary/subsystems/propulsion/throttle_allocation.py:97-99, 164-165. -/
def allocColStat (m : ℕ) (t : ℕ) : ℕ := t % m

/-! ## EngineScaling, aviary/subsystems/propulsion/engine_scaling.py:103-270 -/

/-- Options of the component. Part of the model of aviary/subsystems/propulsion/engine_scaling.py:127-130, 224-225. -/
structure ScaleOpts where
  sub : ℝ
  sup : ℝ
  constTerm : ℝ
  linTerm : ℝ
  constFlow : ℝ

/-- aviary/subsystems/propulsion/engine_scaling.py:127-130, 224-225 -/
def machScaling (o : ScaleOpts) (mach : ℝ) : ℝ := if mach ≥ 1 then o.sup else o.sub
/-- aviary/subsystems/propulsion/engine_scaling.py:122-124 -/
def eqnScaling (o : ScaleOpts) (esf : ℝ) : ℝ := 1 + o.constTerm + o.linTerm * (1 - esf)
/-- `outputs[FUEL_MASS_FLOW_RATE_NEGATIVE]`, aviary/subsystems/propulsion/engine_scaling.py:132-146 -/
def fuelNeg (o : ScaleOpts) (mach esf ff : ℝ) : ℝ :=
  -(ff * (esf * machScaling o mach * eqnScaling o esf) + o.constFlow)
/-- every other scaled variable and its `_max` counterpart, aviary/subsystems/propulsion/engine_scaling.py:148-153 -/
def scaledVar (esf v : ℝ) : ℝ := v * esf
/-- `fuel_flow_deriv`, aviary/subsystems/propulsion/engine_scaling.py:232-234 -/
def jFuelFf (o : ScaleOpts) (mach esf : ℝ) : ℝ := -esf * machScaling o mach * eqnScaling o esf
/-- `fuel_flow_scale_deriv`, aviary/subsystems/propulsion/engine_scaling.py:236-245 -/
def jFuelEsf (o : ScaleOpts) (mach esf ff : ℝ) : ℝ :=
  -machScaling o mach * ff * (1 + o.linTerm + o.constTerm - 2 * o.linTerm * esf)

/-- `SizeEngine.compute`, aviary/subsystems/propulsion/engine_sizing.py:30-38 -/
def scaledThrust (esf ref : ℝ) : ℝ := esf * ref

/-! ## FuelSummationGroup, aviary/subsystems/energy/fuel_summation.py:29-187 -/

/-- Inputs and options. `reserveFinal`/`reserveInitial` are the masses of the reserve segment.
Part of the model of aviary/subsystems/energy/fuel_summation.py:47-60. -/
structure FuelIn where
  gross : ℝ
  massFinal : ℝ
  hasReserve : Bool
  reserveInitial : ℝ
  reserveFinal : ℝ
  margin : ℝ
  finalMass : ℝ
  additional : ℝ
  totalFuel : ℝ
  capacity : ℝ
  unusable : ℝ
  taxiIn : ℝ

/-- `fuel_burned`, aviary/subsystems/energy/fuel_summation.py:47-60 -/
def FuelIn.burned (f : FuelIn) : ℝ := f.gross - f.massFinal
/-- `reserve_fuel_burned` (input default 0 without reserve phases), aviary/subsystems/energy/fuel_summation.py:62-76, 107 -/
def FuelIn.reserveBurned (f : FuelIn) : ℝ := if f.hasReserve then f.reserveInitial - f.reserveFinal else 0
/-- `reserve_fuel_margin_mass` (input default 0 when the margin is 0), aviary/subsystems/energy/fuel_summation.py:78-100, 105 -/
def FuelIn.marginMass (f : FuelIn) : ℝ :=
  if f.margin ≠ 0 then f.margin / 100 * (f.gross - f.finalMass) else 0
/-- `reserve_fuel_mass`, aviary/subsystems/energy/fuel_summation.py:102-120 -/
def FuelIn.totalReserve (f : FuelIn) : ℝ := f.marginMass + f.additional + f.reserveBurned
/-- `total_fuel_mass_constraint`, aviary/subsystems/energy/fuel_summation.py:124-140 -/
def FuelIn.massResidual (f : FuelIn) : ℝ := f.totalFuel - f.burned - f.totalReserve
/-- `excess_fuel_capacity`, aviary/subsystems/energy/fuel_summation.py:142-161 -/
def FuelIn.excess (f : FuelIn) : ℝ := f.capacity - f.unusable - f.totalFuel
/-- `block_fuel`, aviary/subsystems/energy/fuel_summation.py:174-187 -/
def FuelIn.block (f : FuelIn) : ℝ := f.burned + f.taxiIn

end
end Verif
