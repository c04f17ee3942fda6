import Mathlib.Analysis.SpecialFunctions.Trigonometric.Basic

/-! # Inputs of the Hamilton Standard propeller map

`PreHamiltonStandard`, aviary/subsystems/propulsion/propeller/hamilton_standard.py:459-587.  Numbers are real numbers,
a vector over the nodes is a list. -/

namespace Verif.PreHamilton
open Real

/-- The inputs at one node, aviary/subsystems/propulsion/propeller/hamilton_standard.py:470-481. -/
structure Node where
  tip : ℝ
  shp : ℝ
  rho : ℝ
  v : ℝ
  sos : ℝ

/-- The outputs at one node, aviary/subsystems/propulsion/propeller/hamilton_standard.py:483-485. -/
structure Out where
  cp : ℝ
  adv : ℝ
  tipMach : ℝ

/-- The `om.AnalysisError`s, aviary/subsystems/propulsion/propeller/hamilton_standard.py:536-549. -/
inductive Err | diameter | tip | sos | density | power
  deriving DecidableEq

open Classical in
/-- `any(x)` of Python as a number: 1 if some entry is not zero.
Part of the model of aviary/subsystems/propulsion/propeller/hamilton_standard.py:523-558. -/
noncomputable def anyNum (l : List ℝ) : ℝ := if ∃ x ∈ l, x ≠ 0 then 1 else 0

open Classical in
/-- `vtas[np.where(vtas <= 1e-6)] = 1e-6`, aviary/subsystems/propulsion/propeller/hamilton_standard.py:533. -/
noncomputable def clamp (v : ℝ) : ℝ := if v ≤ 1 / 10 ^ 6 then 1 / 10 ^ 6 else v

/-- `10.0e10 / (2 * 6966.0)`, aviary/subsystems/propulsion/propeller/hamilton_standard.py:557, 570. -/
noncomputable def K : ℝ := 10 * 10 ^ 10 / (2 * 6966)

/-- The outputs of one node, aviary/subsystems/propulsion/propeller/hamilton_standard.py:551-558. -/
noncomputable def node (rho0 d : ℝ) (n : Node) : Out where
  cp := n.shp * (10 * 10 ^ 10) / (2 * 6966) / (n.rho / rho0) / (n.tip ^ 3 * d ^ 2)
  adv := π * clamp n.v / n.tip
  tipMach := n.tip / n.sos

open Classical in
/-- `PreHamiltonStandard.compute`, aviary/subsystems/propulsion/propeller/hamilton_standard.py:523-558. -/
noncomputable def compute (rho0 d : ℝ) (ns : List Node) : Except Err (List Out) :=
  if d ≤ 0 then .error .diameter
  else if anyNum (ns.map (·.tip)) ≤ 0 then .error .tip
  else if anyNum (ns.map (·.sos)) ≤ 0 then .error .sos
  else if anyNum (ns.map fun n => n.rho / rho0) ≤ 0 then .error .density
  else if anyNum (ns.map (·.shp)) < 0 then .error .power
  else .ok (ns.map (node rho0 d))

/-- The inputs of a node by which derivatives are given, and the diameter.
Part of the model of aviary/subsystems/propulsion/propeller/hamilton_standard.py:523-558. -/
inductive Wrt | tip | shp | rho | v | sos | d
  deriving DecidableEq

/-- The value named by `w`.
Part of the model of aviary/subsystems/propulsion/propeller/hamilton_standard.py:523-558. -/
def get (n : Node) (d : ℝ) : Wrt → ℝ
  | .tip => n.tip | .shp => n.shp | .rho => n.rho | .v => n.v | .sos => n.sos | .d => d

/-- The node with the value named by `w` replaced.
Part of the model of aviary/subsystems/propulsion/propeller/hamilton_standard.py:523-558. -/
def setN (n : Node) : Wrt → ℝ → Node
  | .tip, t => { n with tip := t } | .shp, t => { n with shp := t } | .rho, t => { n with rho := t }
  | .v, t => { n with v := t } | .sos, t => { n with sos := t } | .d, _ => n

/-- The diameter with the value named by `w` replaced.
Part of the model of aviary/subsystems/propulsion/propeller/hamilton_standard.py:523-558. -/
def setD (d : ℝ) : Wrt → ℝ → ℝ
  | .d, t => t | _, _ => d

/-- `PreHamiltonStandard.compute_partials`, aviary/subsystems/propulsion/propeller/hamilton_standard.py:560-587; entries not declared are zero. The velocity
read is the one which `compute` has overwritten in place. -/
noncomputable def part (rho0 d : ℝ) (n : Node) : Wrt → Out
  | .tip => ⟨-3 * K * n.shp * rho0 / (n.rho * n.tip ^ 4 * d ^ 2), -π * clamp n.v / (n.tip * n.tip), 1 / n.sos⟩
  | .shp => ⟨K * rho0 / (n.rho * n.tip ^ 3 * d ^ 2), 0, 0⟩
  | .rho => ⟨-K * n.shp * rho0 / (n.rho * n.rho * n.tip ^ 3 * d ^ 2), 0, 0⟩
  | .v => ⟨0, π / n.tip, 0⟩
  | .sos => ⟨0, 0, -n.tip / n.sos ^ 2⟩
  | .d => ⟨-2 * K * n.shp * rho0 / (n.rho * n.tip ^ 3 * d ^ 3), 0, 0⟩

end Verif.PreHamilton
