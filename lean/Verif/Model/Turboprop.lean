import Mathlib.Data.Nat.Notation
import Mathlib.Data.List.Infix
import Mathlib.Data.Real.Basic
import Verif.Model.Dict
import Verif.Model.PropMission

/-!
# Turboprop engine models

`aviary/subsystems/propulsion/turboprop_model.py`, the gearbox and the motor.

A name is a list of characters.  `configure` is modelled by the connections and promotions it asks for.
Simplifications: the lists of inputs and outputs come from sets and have no duplicates, so `remove`
drops every entry with that name; their order, which Python leaves open, is that of the given lists.
-/

namespace Verif.Turboprop

open Verif (Dict Err)
open Verif.PropMission (update combine)

/-- Names of variables (`aviary/subsystems/propulsion/turboprop_model.py:699-1021`). -/
abbrev Name := List Char

/-- `Dynamic.Vehicle.Propulsion.RPM` (`aviary/variable_info/variables.py:660`). -/
def rpm : Name := "rotations_per_minute".toList
/-- `Dynamic.Vehicle.Propulsion.THRUST` (`aviary/variable_info/variables.py:665`). -/
def thrust : Name := "thrust_net".toList
/-- `Dynamic.Vehicle.Propulsion.SHAFT_POWER` (`aviary/variable_info/variables.py:661`). -/
def shaftPower : Name := "shaft_power".toList
/-- `Dynamic.Vehicle.Propulsion.TORQUE` (`aviary/variable_info/variables.py:669`). -/
def torque : Name := "torque".toList

/-- `skipped_inputs` (`aviary/subsystems/propulsion/turboprop_model.py:718-727`). -/
def skipped : List Name :=
  ["electric_power_in".toList,
   "fuel_flow_rate_negative".toList,
   "nox_rate".toList, shaftPower,
   "shaft_power_max".toList,
   "t4".toList, thrust,
   "thrust_net_max".toList]

/-- `var + '_in'` (`aviary/subsystems/propulsion/turboprop_model.py:844`). -/
def inn (v : Name) : Name := v ++ "_in".toList
/-- `var + '_out'` (`aviary/subsystems/propulsion/turboprop_model.py:839`). -/
def out (v : Name) : Name := v ++ "_out".toList
/-- `var[-3:] == '_in'` (`aviary/subsystems/propulsion/turboprop_model.py:965`). -/
def isIn (v : Name) : Bool := v.drop (v.length - 3) == "_in".toList
/-- `var[-4:] == '_out'` (`aviary/subsystems/propulsion/turboprop_model.py:981`). -/
def isOut (v : Name) : Bool := v.drop (v.length - 4) == "_out".toList
/-- `var[:-4]` (`aviary/subsystems/propulsion/turboprop_model.py:982`). -/
def base (v : Name) : Name := v.take (v.length - 4)

/-- Ends of connections: variables of the shaft power model, of the gearbox, of the propeller, the source
of RPM, the two inputs of the sum of thrusts, and names promoted to the group
(`aviary/subsystems/propulsion/turboprop_model.py:819-1011`). -/
inductive Port
  | shp (v : Name) | gear (v : Name) | prop (v : Name) | rpmSource | sumShaft | sumProp | top (v : Name)
  deriving DecidableEq, Repr

/-- What `configure` starts with: the promoted inputs and outputs of the three models
(`aviary/subsystems/propulsion/turboprop_model.py:735-813`). -/
structure Lists where
  shpIn : List Name
  shpOut : List Name
  gearIn : List Name
  gearOut : List Name
  propIn : List Name
  propOut : List Name

/-- What is left to do, what has been connected and what will be promoted
(`aviary/subsystems/propulsion/turboprop_model.py:729-733`). -/
structure St extends Lists where
  conns : List (Port × Port) := []
  shpOutputs : List (Name × Name) := []
  gearInputs : List Name := []
  gearOutputs : List (Name × Name) := []
  rpmAll : Bool := false
  rpmControl : Bool := false

/-- `l.remove(v)` (`aviary/subsystems/propulsion/turboprop_model.py:828`). -/
def drop (l : List Name) (v : Name) : List Name := l.filter fun w => decide (w ≠ v)

/-- The inputs of the gearbox, without those that contain `_out`
(`aviary/subsystems/propulsion/turboprop_model.py:769-776`). -/
def gearInputList (l : List Name) : List Name := l.filter fun v => !decide ("_out".toList <:+: v)

/-- Thrust of the shaft power model (`aviary/subsystems/propulsion/turboprop_model.py:823-828`). -/
def shpThrust (s : St) : St :=
  if thrust ∈ s.shpOut then
    { s with conns := s.conns ++ [(.shp thrust, .sumShaft)], shpOut := drop s.shpOut thrust }
  else s

/-- One round of the loop over the outputs of the shaft power model; `and` binds tighter than `or`
(`aviary/subsystems/propulsion/turboprop_model.py:834-846`). -/
def gearLink (s : St) (v : Name) : St :=
  let s1 :=
    if v ∈ s.gearOut ∨ out v ∈ s.gearOut ∧ v ≠ rpm then { s with shpOut := drop s.shpOut v } else s
  if inn v ∈ s1.gearIn ∧ v ≠ rpm then
    { s1 with gearIn := drop s1.gearIn (inn v), conns := s1.conns ++ [(.shp v, .gear (inn v))] }
  else s1

/-- The name the overridden RPM gets (`aviary/subsystems/propulsion/turboprop_model.py:869-874`). -/
def override : Name := "INTERNAL_OVERRIDE:".toList ++ rpm

/-- RPM when it is fixed (`aviary/subsystems/propulsion/turboprop_model.py:859-896`). -/
def rpmFixed (s : St) : St :=
  let s1 :=
    if rpm ∈ s.shpOut then
      { s with shpOutputs := s.shpOutputs ++ [(rpm, override)], shpOut := drop s.shpOut rpm }
    else s
  let s2 :=
    if inn rpm ∈ s1.gearIn then
      { s1 with conns := s1.conns ++ [(.rpmSource, .gear (inn rpm))], gearIn := drop s1.gearIn (inn rpm) }
    else { s1 with rpmAll := true }
  if rpm ∈ s2.shpIn then
    { s2 with conns := s2.conns ++ [(.rpmSource, .shp rpm)], shpIn := drop s2.shpIn rpm }
  else s2

/-- RPM when it is not fixed (`aviary/subsystems/propulsion/turboprop_model.py:897-951`). -/
def rpmFree (s : St) : St :=
  let s1 :=
    if rpm ∉ s.shpOut ∧ (rpm ∈ s.shpIn ∨ inn rpm ∈ s.gearIn ∨ rpm ∈ s.propIn) then
      { s with rpmControl := true }
    else s
  let s2 :=
    if rpm ∈ s1.shpIn then
      { s1 with conns := s1.conns ++ [(.rpmSource, .shp rpm)], shpIn := drop s1.shpIn rpm }
    else s1
  let s3 :=
    if inn rpm ∈ s2.gearIn then
      if rpm ∈ s2.shpOut then
        { s2 with conns := s2.conns ++ [(.shp rpm, .gear (inn rpm))]
                  gearIn := drop s2.gearIn (inn rpm), shpOut := drop s2.shpOut rpm }
      else
        { s2 with conns := s2.conns ++ [(.rpmSource, .gear (inn rpm))], gearIn := drop s2.gearIn (inn rpm) }
    else s2
  if rpm ∉ s3.shpOut ∧ out rpm ∉ s3.gearOut ∧ rpm ∈ s3.propIn then
    { s3 with conns := s3.conns ++ [(.rpmSource, .prop rpm)], propIn := drop s3.propIn rpm }
  else s3

/-- Inputs of the gearbox that are left are promoted or forgotten
(`aviary/subsystems/propulsion/turboprop_model.py:962-968`). -/
def gearPromote (s : St) : St :=
  { s with gearInputs := s.gearInputs ++ s.gearIn.filter (fun v => decide (v ∉ skipped) && !isIn v)
           gearIn := [] }

/-- Propeller inputs with the name of a gearbox output
(`aviary/subsystems/propulsion/turboprop_model.py:970-975`). -/
def exactLink (s : St) (v : Name) : St :=
  if v ∈ s.gearOut then
    { s with conns := s.conns ++ [(.top v, .prop v)], propIn := drop s.propIn v }
  else s

/-- Gearbox outputs ending in `_out` (`aviary/subsystems/propulsion/turboprop_model.py:980-987`). -/
def outLink (s : St) (v : Name) : St :=
  if isOut v then
    let s1 := { s with gearOutputs := s.gearOutputs ++ [(v, base v)], gearOut := drop s.gearOut v }
    if base v ∈ s1.propIn then
      { s1 with conns := s1.conns ++ [(.top (base v), .prop (base v))], propIn := drop s1.propIn (base v) }
    else s1
  else s

/-- Thrust of the propeller (`aviary/subsystems/propulsion/turboprop_model.py:998-1003`). -/
def propThrust (s : St) : St :=
  if thrust ∈ s.propOut then
    { s with conns := s.conns ++ [(.prop thrust, .sumProp)], propOut := drop s.propOut thrust }
  else s

/-- Connections and promotions asked for (`aviary/subsystems/propulsion/turboprop_model.py:1013-1021`). -/
structure Wiring where
  conns : List (Port × Port)
  shpInputs : List Name
  shpOutputs : List (Name × Name)
  gearInputs : List Name
  gearOutputs : List (Name × Name)
  propInputs : List Name
  propOutputs : List Name
  rpmAll : Bool
  rpmControl : Bool

/-- The state after the RPM has been handled
(`aviary/subsystems/propulsion/turboprop_model.py:815-951`). -/
def upstream (fixed : Bool) (l : Lists) : St :=
  let s1 := shpThrust { toLists := { l with gearIn := gearInputList l.gearIn } }
  let s2 := s1.shpOut.foldl gearLink s1
  if fixed then rpmFixed s2 else rpmFree s2

/-- The state after the gearbox has been handled
(`aviary/subsystems/propulsion/turboprop_model.py:957-994`). -/
def downstream (s : St) : St :=
  let s4 := gearPromote s
  let s5 := s4.propIn.foldl exactLink s4
  s5.gearOut.foldl outLink s5

/-- `configure` with a gearbox; without one the lists of the gearbox are used before they exist
(`aviary/subsystems/propulsion/turboprop_model.py:699-1021`, `:989-993`). -/
def configure (hasGear fixed : Bool) (l : Lists) : Except Err Wiring :=
  if hasGear then
    let s3 := upstream fixed l
    let s6 := downstream s3
    let s7 := propThrust s6
    .ok { conns := s7.conns
          shpInputs := s3.shpIn
          shpOutputs := s3.shpOutputs ++ s3.shpOut.map fun v => (v, v)
          gearInputs := s6.gearInputs ++ s6.gearIn
          gearOutputs := s6.gearOutputs ++ s6.gearOut.map fun v => (v, v)
          propInputs := s7.propIn.filter fun v => decide (v ∉ skipped)
          propOutputs := s7.propOut
          rpmAll := s3.rpmAll
          rpmControl := s3.rpmControl }
  else .error .unboundLocal

/-! ## The builder -/

/-- `get_controls`: the control of RPM is renamed
(`aviary/subsystems/propulsion/turboprop_model.py:317-355`). -/
def controls {α : Type} (own shp gear prop : Dict String α) : Dict String α :=
  let c := combine [own, shp, gear, prop]
  match c.get? "rotations_per_minute" with
  | some x => Dict.set (Dict.erase c "rotations_per_minute") "rotations_per_minute_control" x
  | none => c

/-- `get_linked_variables`, `get_mass_names` and `get_timeseries`
(`aviary/subsystems/propulsion/turboprop_model.py:423-444`, `:525-533`, `:545-561`). -/
def nameLists (own shp gear prop : List String) : List String := ((own ++ shp) ++ gear) ++ prop

/-- The models of a turboprop: what is not given is built
(`aviary/subsystems/propulsion/turboprop_model.py:60-96`). -/
def parts {α : Type} (deck gearbox hamilton : α) (shp prop gear : Option α) : α × α × α :=
  (shp.getD deck, gear.getD gearbox, prop.getD hamilton)

/-! ## Gearbox and motor -/

/-- RPM behind the gearbox (`aviary/subsystems/propulsion/gearbox/model/gearbox_mission.py:18-31`). -/
noncomputable def gearRpm (ratio rpmIn : ℝ) : ℝ := rpmIn / ratio

/-- Power behind the gearbox (`aviary/subsystems/propulsion/gearbox/model/gearbox_mission.py:33-47`). -/
noncomputable def gearPower (eff powerIn : ℝ) : ℝ := powerIn * eff

/-- Torque behind the gearbox; `omega` is the angular speed behind it
(`aviary/subsystems/propulsion/gearbox/model/gearbox_mission.py:49-69`). -/
noncomputable def gearTorque (power omega : ℝ) : ℝ := power / omega

/-- Torque of the motor (`aviary/subsystems/propulsion/motor/model/motor_map.py:78-120`). -/
noncomputable def motorTorque (torqueMax throttle scale : ℝ) : ℝ := torqueMax * throttle * scale

/-- Power of the motor (`aviary/subsystems/propulsion/motor/model/motor_mission.py:71-82`). -/
noncomputable def motorPower (torque omega : ℝ) : ℝ := torque * omega

/-- Electric power (`aviary/subsystems/propulsion/motor/model/motor_mission.py:93-104`). -/
noncomputable def electricPower (power eff : ℝ) : ℝ := power / eff

/-- The number of the greatest torque, taken in the units of the file and read as N·m
(`aviary/subsystems/propulsion/motor/model/motor_map.py:46-54`, `:78-93`). -/
noncomputable def torqueMaxUsed (inFileUnits : ℝ) : ℝ := inFileUnits

/-- The gearbox is designed for this torque: power over the angular speed behind it
(`aviary/subsystems/propulsion/gearbox/model/gearbox_premission.py:22-50`). -/
noncomputable def gearTorqueMax (power omegaIn ratio : ℝ) : ℝ := power / (omegaIn / ratio)

/-- Simple mass of the gearbox (`aviary/subsystems/propulsion/gearbox/model/gearbox_premission.py:52-69`). -/
noncomputable def gearMass (torqueMax specific : ℝ) : ℝ := torqueMax / specific

/-- Where the RPM of the motor and of the rest comes from, given the option for fixed RPM if it is set:
the motor takes it for set if it is not 0, the turboprop if it is there
(`aviary/subsystems/propulsion/motor/model/motor_mission.py:27-33`,
`aviary/subsystems/propulsion/turboprop_model.py:859-879`). -/
noncomputable def rpmOf (option : Option ℝ) (own : ℝ) : ℝ × ℝ :=
  (if option.getD 0 ≠ 0 then option.getD 0 else own,
   match option with
   | some f => f
   | none => own)

end Verif.Turboprop
