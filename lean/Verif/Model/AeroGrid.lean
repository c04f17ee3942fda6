import Verif.Model.Interpolator

/-!
# Tables of the GASP based aerodynamics

Hand-written model of the builders of interpolations in aviary/subsystems/aerodynamics/gasp_based/table_based.py:445-698. Columns are lists of
rationals of equal length, n-d arrays are their contents in C order. Reading of files, units and the components of OpenMDAO are left out.
-/

namespace Verif.AeroGrid

/-- A row: the first two columns and the angle of attack, aviary/subsystems/aerodynamics/gasp_based/table_based.py:670-685. -/
abbrev Row := ℚ × ℚ × ℚ

/-- The angles used for the grid, aviary/subsystems/aerodynamics/gasp_based/table_based.py:682-691. -/
def angles (rows : List Row) : List ℚ :=
  let x0 := npUnique (rows.map fun r => r.1)
  let x1 := npUnique (rows.map fun r => r.2.1)
  if x0.length < rows.length then
    npUnique ((rows.filter fun r => r.1 == x0.getD 0 0 && r.2.1 == x1.getD 0 0).map fun r => r.2.2)
  else rows.map fun r => r.2.2

/-- `_structure_special_grid`: the new column of angles, aviary/subsystems/aerodynamics/gasp_based/table_based.py:661-698. The third array of
`meshgrid` holds the angles once per pair of the other two. -/
def special (rows : List Row) : List ℚ :=
  (List.replicate ((npUnique (rows.map fun r => r.1)).length * (npUnique (rows.map fun r => r.2.1)).length) (angles rows)).flatten

/-- `delta_lift_coefficient_max` for sizes `d`, `m` and `a` of the axes: `reshape`, the last angle broadcast over all angles, `flatten`,
aviary/subsystems/aerodynamics/gasp_based/table_based.py:573-580, 636-643. `dcl[i, :, -1]` of an axis without values raises. -/
def dclMax (d m a : Nat) (flat : List ℚ) : Except Err (List ℚ) :=
  if flat.length ≠ d * m * a then .error .valueError
  else if a = 0 ∧ 0 < d then .error .indexError
  else .ok ((List.range d).flatMap fun i => (List.range m).flatMap fun j =>
    List.replicate a (flat.getD ((i * m + j) * a + (a - 1)) 0))

/-- `cl_max`, the entries `[0, :, -1]` of the lift coefficient with axes of sizes `n0`, `n1` and `a`,
aviary/subsystems/aerodynamics/gasp_based/table_based.py:505-507. -/
def clMax (n1 a : Nat) (flat : List ℚ) : List ℚ := (List.range n1).map fun j => flat.getD (j * a + (a - 1)) 0

/-- The three tables, aviary/subsystems/aerodynamics/gasp_based/table_based.py:445, 527, 597. -/
inductive Table | free | flaps | ground
  deriving DecidableEq, Repr

/-- `required_inputs`, aviary/subsystems/aerodynamics/gasp_based/table_based.py:466-470, 551, 616. -/
def reqIn : Table → List String
  | .free => ["altitude", "mach", "angle_of_attack"]
  | .flaps => ["flap_deflection", "mach", "angle_of_attack"]
  | .ground => ["hob", "mach", "angle_of_attack"]

/-- `required_outputs`, aviary/subsystems/aerodynamics/gasp_based/table_based.py:471, 552, 617. -/
def reqOut : Table → List String
  | .free => ["lift_coefficient", "drag_coefficient"]
  | _ => ["delta_lift_coefficient", "delta_drag_coefficient"]

/-- `_structure_special_grid` needs two columns and the angle of attack, aviary/subsystems/aerodynamics/gasp_based/table_based.py:670-685; it
is not called for the ground table, aviary/subsystems/aerodynamics/gasp_based/table_based.py:464, 549. -/
def structureErr (t : Table) (keys : List String) : Option Err :=
  if t = .ground then none
  else if keys.length < 2 then some .indexError
  else if "angle_of_attack" ∉ keys then some .keyError
  else none

/-- Checks before the interpolation is built, aviary/subsystems/aerodynamics/gasp_based/table_based.py:461-481, 546-564, 613-629: missing
variables, then for flaps and ground the lookup of the lift increment whether or not training data is connected. -/
def check (t : Table) (connect : Bool) (keys : List String) : Except Err Unit :=
  match structureErr t keys with
  | some e => .error e
  | none =>
    if !(reqIn t).all keys.contains then .error .keyError
    else if !connect && !(reqOut t).all keys.contains then .error .keyError
    else if t ≠ .free && !keys.contains "delta_lift_coefficient" then .error .keyError
    else .ok ()

/-- Outputs of the component built, aviary/subsystems/aerodynamics/gasp_based/table_based.py:488-524, 582-594, 646-658. -/
def outputs (t : Table) (connect : Bool) : List String :=
  match t with
  | .free => ["lift_coefficient", "drag_coefficient"] ++ if connect then [] else ["lift_coefficient_max"]
  | _ => ["delta_lift_coefficient", "delta_drag_coefficient", "delta_lift_coefficient_max"]

/-- Outputs that `TabularLowSpeedAero` promotes, aviary/subsystems/aerodynamics/gasp_based/table_based.py:220-282. -/
def promoted : Table → List String
  | .free => ["lift_coefficient", "drag_coefficient", "lift_coefficient_max"]
  | _ => ["delta_lift_coefficient", "delta_drag_coefficient", "delta_lift_coefficient_max"]

/-- `interpolation method` of the free table: the argument is overwritten, aviary/subsystems/aerodynamics/gasp_based/table_based.py:483-486. -/
def method (connect : Bool) (_given : String) : String := if connect then "lagrange2" else "3D-lagrange2"

/-- Ramps and defaults of `TabularLowSpeedAero`, aviary/subsystems/aerodynamics/gasp_based/table_based.py:289-375. -/
structure LowSpeed where
  gearUp : Bool
  flapsDragUp : Bool
  flapsLiftUp : Bool
  flapDefl : ℚ
  dtGear : Option ℚ
  dtFlaps : Option ℚ

/-- `ramp_up` of the three ramps and the input defaults, aviary/subsystems/aerodynamics/gasp_based/table_based.py:289-375. -/
def lowSpeed (retractGear retractFlaps : Bool) : LowSpeed where
  gearUp := !retractGear
  flapsDragUp := !retractGear
  flapsLiftUp := !retractGear
  flapDefl := if retractFlaps then 10 else 40
  dtGear := if retractGear then some 7 else none
  dtFlaps := if retractFlaps then some 3 else none

end Verif.AeroGrid
