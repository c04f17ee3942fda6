import Verif.Model.EngineDeck

/-!
# Model of the group built by `EngineDeck.build_mission` (aviary/subsystems/propulsion/engine_deck.py:867-1186)

The group is a list of subsystems, each with its inputs, outputs and promoted names, and a list of explicit connections.
Training data, units and descriptions are left out.  Names are structured: `unscaled v` is `v.value + '_unscaled'`, and so on.
-/

namespace Verif.DeckWiring

open Verif

/-- The names of the subsystems added to the group, aviary/subsystems/propulsion/engine_deck.py:1049-1150. -/
inductive Sub
  | interpolation | uncorrect | fixedMax | interpMax | maxInterpolation | uncorrectMax | scaling
  deriving DecidableEq, Repr

/-- The names of inputs and outputs, aviary/subsystems/propulsion/engine_deck.py:814-846, 906-1040 and
aviary/subsystems/propulsion/engine_scaling.py:50-101. -/
inductive Nm
  /-- `variable.value` -/
  | val (v : EVar)
  /-- `variable.value + '_unscaled'` -/
  | unscaled (v : EVar)
  /-- `variable.value + '_max'` -/
  | max (v : EVar)
  /-- `variable.value + '_max_unscaled'` -/
  | maxUnscaled (v : EVar)
  /-- The variables of `UncorrectData`. -/
  | correctedData | uncorrectedData | temperature | staticPressure
  /-- `Aircraft.Engine.SCALE_FACTOR` -/
  | scaleFactor
  /-- `FUEL_MASS_FLOW_RATE_NEGATIVE` -/
  | negFuelFlow
  deriving DecidableEq

/-- A subsystem as seen by the group: inputs, outputs, promoted inputs and promoted outputs,
aviary/subsystems/propulsion/engine_deck.py:1049-1150. -/
structure Sys where
  name : Sub
  ins : List Nm
  outs : List Nm
  promIn : List Nm
  promOut : List Nm

/-- The group returned by `build_mission`: subsystems and explicit connections (source, target),
aviary/subsystems/propulsion/engine_deck.py:1046-1186. -/
structure Group where
  systems : List Sys
  conns : List ((Sub × Nm) × (Sub × Nm))

/-- What the deck holds when the group is built: the keys of `engine_variables`, the lists `inputs` and `outputs` (`none` when
the attributes were never set: only `read_data_file` sets them, aviary/subsystems/propulsion/engine_deck.py:356-360), the two throttle
options and the order of sorting. -/
structure Deck where
  vars : List EVar
  io : Option (List EVar × List EVar)
  globalThrottle : Bool
  globalHybrid : Bool
  sortAlt : Bool

/-- `self.use_thrust`, aviary/subsystems/propulsion/engine_deck.py:287-291. -/
def Deck.useThrust (d : Deck) : Bool :=
  d.vars.contains .thrust || d.vars.contains .tailpipeThrust || (d.vars.contains .grossThrust && d.vars.contains .ramDrag)

/-- `self.use_hybrid_throttle`, aviary/subsystems/propulsion/engine_deck.py:292. -/
def Deck.useHybrid (d : Deck) : Bool := d.vars.contains .hybridThrottle

/-- `self.use_t4`, aviary/subsystems/propulsion/engine_deck.py:293. -/
def Deck.useT4 (d : Deck) : Bool := d.vars.contains .t4

/-- `self.use_shaft_power`, aviary/subsystems/propulsion/engine_deck.py:294-296. -/
def Deck.useShaftPower (d : Deck) : Bool := d.vars.contains .shaftPower || d.vars.contains .shaftPowerCorrected

/-- `self.use_thrust or self.use_shaft_power`, aviary/subsystems/propulsion/engine_deck.py:904. -/
def Deck.needsMax (d : Deck) : Bool := d.useThrust || d.useShaftPower

/-- `self.global_throttle or (self.global_hybrid_throttle and self.use_hybrid_throttle)`,
aviary/subsystems/propulsion/engine_deck.py:905, 922-924, 1080, 1102. -/
def Deck.fixed (d : Deck) : Bool := d.globalThrottle || (d.globalHybrid && d.useHybrid)

/-- `independent_variables`, aviary/subsystems/propulsion/engine_deck.py:797-800. -/
def indep (sortAlt : Bool) : List EVar :=
  if sortAlt then [.altitude, .mach, .throttle, .hybridThrottle] else [.mach, .altitude, .throttle, .hybridThrottle]

/-- The list of inputs used by the interpolator, aviary/subsystems/propulsion/engine_deck.py:802-810. -/
def Deck.inputs (d : Deck) : Except Err (List EVar) :=
  match d.io with
  | none => .error .attributeError
  | some (ins, outs) =>
    if ins = [] then .ok (indep d.sortAlt)
    else if (indep d.sortAlt).any (fun v => outs.contains v) then .error .userWarning
    else .ok ins

/-- `no_scale_variables`, aviary/subsystems/propulsion/engine_deck.py:812. -/
def noScale : List EVar := [.t4, .rpm]

/-- `_build_engine_interpolator`, aviary/subsystems/propulsion/engine_deck.py:814-848, with its promotions at 1043-1051. -/
def interpSys (d : Deck) (ins : List EVar) : Sys :=
  let is := (((indep d.sortAlt).filter fun v => ins.contains v && d.vars.contains v) ++
    d.vars.filter fun v => ins.contains v && !(indep d.sortAlt).contains v).map Nm.val
  { name := .interpolation
    ins := is
    outs := (d.vars.filter fun v => !ins.contains v).map fun v => if v ∈ noScale then .val v else .unscaled v
    promIn := is
    promOut := if d.useT4 then [.val .t4] else [] }

/-- `uncorrect_shp`, aviary/subsystems/propulsion/engine_deck.py:1054-1059. -/
def Deck.uncorrectShp (d : Deck) : Bool := d.vars.contains .shaftPowerCorrected && !d.vars.contains .shaftPower

/-- A subsystem `UncorrectData`, aviary/subsystems/propulsion/engine_deck.py:1060-1068, 1114-1124 and
aviary/subsystems/propulsion/utils.py:360-414 (the ambient reference values inside the group are left out). -/
def uncorrectSys (n : Sub) : Sys :=
  { name := n
    ins := [.temperature, .staticPressure, .val .mach, .correctedData]
    outs := [.uncorrectedData]
    promIn := [.temperature, .staticPressure, .val .mach]
    promOut := [] }

/-- `fixed_max_throttles`, aviary/subsystems/propulsion/engine_deck.py:905-921, 1080-1084. -/
def fixedSys (d : Deck) : Sys :=
  { name := .fixedMax
    ins := []
    outs := (if d.globalThrottle then [.max .throttle] else []) ++
      (if d.globalHybrid && d.useHybrid then [.max .hybridThrottle] else [])
    promIn := []
    promOut := [] }

/-- `interp_max_throttles`, aviary/subsystems/propulsion/engine_deck.py:922-978, 1085-1090. -/
def interpMaxSys (d : Deck) : Sys :=
  let is : List Nm := if d.sortAlt then [.val .altitude, .val .mach] else [.val .mach, .val .altitude]
  { name := .interpMax
    ins := is
    outs := (if !d.globalThrottle then [.max .throttle] else []) ++
      (if !d.globalHybrid && d.useHybrid then [.max .hybridThrottle] else [])
    promIn := is
    promOut := [] }

/-- `max_interpolation`, aviary/subsystems/propulsion/engine_deck.py:980-1041, 1092-1099. -/
def maxSys (d : Deck) : Sys :=
  { name := .maxInterpolation
    ins := (if d.sortAlt then [.val .altitude, .val .mach] else [.val .mach, .val .altitude]) ++ [.max .throttle] ++
      (if d.useHybrid then [.max .hybridThrottle] else [])
    outs := [.maxUnscaled .thrust] ++
      (if d.useShaftPower then
        (if d.vars.contains .shaftPower then [.maxUnscaled .shaftPower] else [.maxUnscaled .shaftPowerCorrected])
      else [])
    promIn := [.val .mach, .val .altitude]
    promOut := [] }

/-- The keys of `engine_outputs`, aviary/subsystems/propulsion/engine_deck.py:1131-1134. -/
def Deck.engineOutputs (d : Deck) : List EVar :=
  if d.vars.contains .shaftPowerCorrected then
    let vs := d.vars.filter (· ≠ .shaftPowerCorrected)
    if vs.contains .shaftPower then vs else vs ++ [.shaftPower]
  else d.vars

/-- `skip_variables` of `EngineScaling`, aviary/subsystems/propulsion/engine_scaling.py:26. -/
def scalingSkip : List EVar := [.mach, .altitude, .throttle, .hybridThrottle, .t4]

/-- The keys of `max_variables`, aviary/subsystems/propulsion/utils.py:68-71. -/
def maxVariables : List EVar := [.thrust, .shaftPower]

/-- `EngineScaling.setup`, aviary/subsystems/propulsion/engine_scaling.py:50-101, with its promotions at
aviary/subsystems/propulsion/engine_deck.py:1136-1144. -/
def scalingSys (d : Deck) : Sys :=
  let vs := d.engineOutputs.filter fun v => !scalingSkip.contains v
  let os := vs.flatMap fun v =>
    (if v = .fuelFlow then Nm.negFuelFlow else .val v) :: (if v ∈ maxVariables then [.max v] else [])
  { name := .scaling
    ins := [.scaleFactor, .val .mach] ++ vs.flatMap fun v =>
      Nm.unscaled v :: (if v ∈ maxVariables then [.maxUnscaled v] else [])
    outs := os
    promIn := [.scaleFactor, .val .mach]
    promOut := os }

/-- `skipped_variables`, aviary/subsystems/propulsion/engine_deck.py:1148-1156. -/
def skipped : List EVar := [.mach, .altitude, .throttle, .hybridThrottle, .t4, .shaftPowerCorrected, .rpm]

/-- The connections of one variable, aviary/subsystems/propulsion/engine_deck.py:1159-1168. -/
def varConns (v : EVar) : List ((Sub × Nm) × (Sub × Nm)) :=
  (if v ∈ skipped then [] else [((.interpolation, .unscaled v), (.scaling, .unscaled v))]) ++
  (if v ∈ maxVariables then [((.maxInterpolation, .maxUnscaled v), (.scaling, .maxUnscaled v))] else [])

/-- All subsystems in the order they are added, aviary/subsystems/propulsion/engine_deck.py:1048-1144. -/
def systems (d : Deck) (ins : List EVar) : List Sys :=
  [interpSys d ins] ++
  (if d.uncorrectShp then [uncorrectSys .uncorrect] else []) ++
  (if d.needsMax then
    [if d.fixed then fixedSys d else interpMaxSys d, maxSys d] ++
    (if d.uncorrectShp then [uncorrectSys .uncorrectMax] else [])
  else []) ++
  [scalingSys d]

/-- All explicit connections, aviary/subsystems/propulsion/engine_deck.py:1070-1073, 1101-1129, 1159-1178. -/
def conns (d : Deck) : List ((Sub × Nm) × (Sub × Nm)) :=
  (if d.uncorrectShp then [((.interpolation, .unscaled .shaftPowerCorrected), (.uncorrect, .correctedData))] else []) ++
  (if d.needsMax then
    [((if d.fixed then Sub.fixedMax else .interpMax, Nm.max .throttle), (Sub.maxInterpolation, Nm.max .throttle))] ++
    (if d.uncorrectShp then
      [((.maxInterpolation, .maxUnscaled .shaftPowerCorrected), (.uncorrectMax, .correctedData))] else [])
  else []) ++
  d.vars.flatMap varConns ++
  (if d.useShaftPower && !d.vars.contains .shaftPower then
    [((.uncorrect, .uncorrectedData), (.scaling, .unscaled .shaftPower)),
     ((.uncorrectMax, .uncorrectedData), (.scaling, .maxUnscaled .shaftPower))] else [])

/-- `build_mission`, aviary/subsystems/propulsion/engine_deck.py:867-1186. -/
def build (d : Deck) : Except Err Group :=
  match d.inputs with
  | .error e => .error e
  | .ok ins => .ok ⟨systems d ins, conns d⟩

end Verif.DeckWiring
