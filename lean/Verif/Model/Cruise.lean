import Mathlib.Analysis.SpecialFunctions.Log.Basic
import Mathlib.Algebra.BigOperators.Group.Finset.Basic

/-!
# Cruise with given masses or energies

aviary/mission/two_dof/ode/breguet_cruise_eom.py and aviary/mission/two_dof/ode/simple_cruise_eom.py. An array of `nn` nodes is a function on ℕ of which
the entries below `nn` are used. Numbers are real.
-/

namespace Verif.Cruise

open Finset

/-- `np.cumsum(d)[k - 1]` for `k ≥ 1`, and zero for `k = 0`.
Part of the model of aviary/mission/two_dof/ode/breguet_cruise_eom.py:236-249. -/
noncomputable def cum (d : ℕ → ℝ) : ℕ → ℝ
  | 0 => 0
  | k + 1 => cum d k + d k

/-- `GRAV_ENGLISH_LBM`, aviary/constants.py:41 -/
noncomputable def gravLbm : ℝ := 1

/-! ## The matrices of the partials -/

/-- `np.tri(nn)`, aviary/mission/two_dof/ode/breguet_cruise_eom.py:118 -/
noncomputable def tri (i k : ℕ) : ℝ := if k ≤ i then 1 else 0

/-- The scratch matrix after `fill_diagonal` of `[1:, :-1]` with `d1` and of `[1:, 1:]` with `d2`,
aviary/mission/two_dof/ode/breguet_cruise_eom.py:199-200. -/
noncomputable def scratch (d1 d2 : ℕ → ℝ) : ℕ → ℕ → ℝ
  | 0, _ => 0
  | k + 1, j => if j = k then d1 k else if j = k + 1 then d2 k else 0

/-- The matrix product, aviary/mission/two_dof/ode/breguet_cruise_eom.py:202-204, 213. -/
noncomputable def prod (nn : ℕ) (d1 d2 : ℕ → ℝ) (i j : ℕ) : ℝ := ∑ k ∈ range nn, tri i k * scratch d1 d2 k j

/-- The stored entries: those of the lower triangle (aviary/mission/two_dof/ode/breguet_cruise_eom.py:85-107, 202-222); the others are zero. -/
noncomputable def jacRange (nn : ℕ) (d1 d2 : ℕ → ℝ) (i j : ℕ) : ℝ := if j ≤ i then prod nn d1 d2 i j else 0

/-- Partials of the time that are those of the range over the mean speed, aviary/mission/two_dof/ode/breguet_cruise_eom.py:230-234; the first of the
stored entries keeps its value zero. -/
noncomputable def jacTime (nn : ℕ) (d1 d2 : ℕ → ℝ) (vm : ℕ → ℝ) (i j : ℕ) : ℝ :=
  if j ≤ i then (if i = 0 then 0 else jacRange nn d1 d2 i j / vm (i - 1)) else 0

/-- Partials of the time by the speed, aviary/mission/two_dof/ode/breguet_cruise_eom.py:236-249. -/
noncomputable def jacTimeSpeed (nn : ℕ) (d1 d2 : ℕ → ℝ) (dr vm : ℕ → ℝ) (i j : ℕ) : ℝ :=
  if j ≤ i then (if i = 0 then 0 else
    (prod nn d1 d2 i j * vm (i - 1) - scratch (fun _ => 1 / 2) (fun _ => 1 / 2) i j * cum dr i) / vm (i - 1) ^ 2) else 0

/-- Average of the speeds of neighbouring nodes, aviary/mission/two_dof/ode/breguet_cruise_eom.py:140. -/
noncomputable def vm (v : ℕ → ℝ) (k : ℕ) : ℝ := (v k + v (k + 1)) / 2

/-- `outputs['cruise_range']`, aviary/mission/two_dof/ode/breguet_cruise_eom.py:148-149 -/
noncomputable def rangeOut (r0 : ℝ) (dr : ℕ → ℝ) (i : ℕ) : ℝ := if i = 0 then r0 else r0 + cum dr i

/-- `outputs['cruise_time']`, aviary/mission/two_dof/ode/breguet_cruise_eom.py:150-151 -/
noncomputable def timeOut (t0 : ℝ) (dr v : ℕ → ℝ) (i : ℕ) : ℝ := if i = 0 then t0 else t0 + cum dr i / vm v (i - 1)

/-! ## Fuel burning cruise (`RangeComp`) -/

/-- `breg_1`, aviary/mission/two_dof/ode/breguet_cruise_eom.py:142: speed in NM/s, mass in lbm, `ffn` the negative fuel flow in lbm/h. -/
noncomputable def breg (v m ffn : ℕ → ℝ) (k : ℕ) : ℝ := v k * (m k * gravLbm) * 3600 / -ffn k

/-- `star`, aviary/mission/two_dof/ode/breguet_cruise_eom.py:146, 172 -/
noncomputable def star (m : ℕ → ℝ) (k : ℕ) : ℝ :=
  Real.log (1 / (1 - (m k * gravLbm - m (k + 1) * gravLbm) / (m k * gravLbm)))

/-- `drange_cruise`, aviary/mission/two_dof/ode/breguet_cruise_eom.py:146 -/
noncomputable def drange (v m ffn : ℕ → ℝ) (k : ℕ) : ℝ := (breg v m ffn k + breg v m ffn (k + 1)) / 2 * star m k

/-- aviary/mission/two_dof/ode/breguet_cruise_eom.py:176, 185, 192 -/
noncomputable def dFF1 (v m ffn : ℕ → ℝ) (k : ℕ) : ℝ := v k * (m k * gravLbm) * 3600 / (-ffn k) ^ 2 / 2 * star m k
/-- aviary/mission/two_dof/ode/breguet_cruise_eom.py:180, 186, 193 -/
noncomputable def dFF2 (v m ffn : ℕ → ℝ) (k : ℕ) : ℝ :=
  v (k + 1) * (m (k + 1) * gravLbm) * 3600 / (-ffn (k + 1)) ^ 2 / 2 * star m k
/-- aviary/mission/two_dof/ode/breguet_cruise_eom.py:175, 181, 187, 190, 207 -/
noncomputable def dM1 (v m ffn : ℕ → ℝ) (k : ℕ) : ℝ :=
  (v k * 3600 / -ffn k / 2 * star m k +
    (breg v m ffn k + breg v m ffn (k + 1)) / 2 * (1 / (m k * gravLbm))) * gravLbm
/-- aviary/mission/two_dof/ode/breguet_cruise_eom.py:179, 182, 188, 191, 208 -/
noncomputable def dM2 (v m ffn : ℕ → ℝ) (k : ℕ) : ℝ :=
  (v (k + 1) * 3600 / -ffn (k + 1) / 2 * star m k +
    (breg v m ffn k + breg v m ffn (k + 1)) / 2 * (-1 / (m (k + 1) * gravLbm))) * gravLbm
/-- aviary/mission/two_dof/ode/breguet_cruise_eom.py:174, 184, 188 -/
noncomputable def dV1 (m ffn : ℕ → ℝ) (k : ℕ) : ℝ := m k * gravLbm * 3600 / -ffn k / 2 * star m k
/-- aviary/mission/two_dof/ode/breguet_cruise_eom.py:178, 185, 189 -/
noncomputable def dV2 (m ffn : ℕ → ℝ) (k : ℕ) : ℝ := m (k + 1) * gravLbm * 3600 / -ffn (k + 1) / 2 * star m k

/-! ## Electric cruise (`ElectricRangeComp`) -/

/-- `e_breg_1`, aviary/mission/two_dof/ode/breguet_cruise_eom.py:377: energy used in kW·h, power in kW. -/
noncomputable def ebreg (v e p : ℕ → ℝ) (k : ℕ) : ℝ := v k * e k * 3600 / p k

/-- `e_drange_cruise`, aviary/mission/two_dof/ode/breguet_cruise_eom.py:379 -/
noncomputable def edrange (v e p : ℕ → ℝ) (k : ℕ) : ℝ := ebreg v e p (k + 1) - ebreg v e p k

/-- aviary/mission/two_dof/ode/breguet_cruise_eom.py:405-420 -/
noncomputable def eP1 (v e p : ℕ → ℝ) (k : ℕ) : ℝ := -(-v k * e k * 3600 / p k ^ 2)
/-- `eP2`: part of the model of aviary/mission/two_dof/ode/breguet_cruise_eom.py:405-420. -/
noncomputable def eP2 (v e p : ℕ → ℝ) (k : ℕ) : ℝ := -v (k + 1) * e (k + 1) * 3600 / p (k + 1) ^ 2
/-- `eE1`: part of the model of aviary/mission/two_dof/ode/breguet_cruise_eom.py:405-420. -/
noncomputable def eE1 (v p : ℕ → ℝ) (k : ℕ) : ℝ := -(v k * 3600 / p k)
/-- `eE2`: part of the model of aviary/mission/two_dof/ode/breguet_cruise_eom.py:405-420. -/
noncomputable def eE2 (v p : ℕ → ℝ) (k : ℕ) : ℝ := v (k + 1) * 3600 / p (k + 1)
/-- `eV1`: part of the model of aviary/mission/two_dof/ode/breguet_cruise_eom.py:405-420. -/
noncomputable def eV1 (e p : ℕ → ℝ) (k : ℕ) : ℝ := -(e k * 3600 / p k)
/-- `eV2`: part of the model of aviary/mission/two_dof/ode/breguet_cruise_eom.py:405-420. -/
noncomputable def eV2 (e p : ℕ → ℝ) (k : ℕ) : ℝ := e (k + 1) * 3600 / p (k + 1)

/-! ## Simple cruise (`DistanceComp`) -/

/-- aviary/mission/two_dof/ode/simple_cruise_eom.py:72-78 -/
noncomputable def distance (r0 : ℝ) (v t : ℕ → ℝ) (i : ℕ) : ℝ := r0 + v i * (t i - t 0)

/-- aviary/mission/two_dof/ode/simple_cruise_eom.py:46-51, 86: stored on the diagonal. -/
noncomputable def distBySpeed (t : ℕ → ℝ) (i j : ℕ) : ℝ := if i = j then t i - t 0 else 0

/-- aviary/mission/two_dof/ode/simple_cruise_eom.py:61-68, 88-90: stored on the diagonal and in the first column. -/
noncomputable def distByTime (v : ℕ → ℝ) (i j : ℕ) : ℝ :=
  if i = j then (if i = 0 then 0 else v i) else if j = 0 then -v i else 0

/-- aviary/mission/two_dof/ode/simple_cruise_eom.py:52-58: the one entry with rows=[0], cols=[0]. -/
noncomputable def distByStart (i : ℕ) : ℝ := if i = 0 then 1 else 0

end Verif.Cruise
