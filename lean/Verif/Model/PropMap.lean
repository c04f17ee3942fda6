/-! # Set-up of the propeller map, the pre-mission group and the FLOPS mass groups

Models the set-up of `PropellerMap`, `CorePreMission`, `MassPremission` and `WingMassGroup`.
Components are represented by their names. -/

namespace Verif.PropMap

/-- What can stop the set-up of the map, aviary/subsystems/propulsion/propeller/propeller_map.py:49-103. -/
inductive MapErr
  | noMach
  | unboundOutputs
  | insufficient
  deriving DecidableEq, Repr

/-- A table: its columns in order, and the columns the file labels as outputs,
aviary/subsystems/propulsion/propeller/propeller_map.py:55-58. -/
structure Table where
  keys : List String
  outputs : List String

/-- Where the data come from: the file, or the option `propeller_data`, which carries no labels,
aviary/subsystems/propulsion/propeller/propeller_map.py:52-66. -/
inductive Source
  | file (t : Table)
  | memory (keys : List String)

/-- aviary/subsystems/propulsion/propeller/propeller_map.py:69 -/
def machTypes (keys : List String) : List String :=
  ["mach", "helical_mach"].filter fun k => decide (k ∈ keys)

/-- The group that is set up: whether the helical Mach number is computed, and the inputs of the
interpolation, aviary/subsystems/propulsion/propeller/propeller_map.py:84-103. -/
structure Built where
  helical : Bool
  inputs : List String
  deriving DecidableEq, Repr

/-- The inputs of the interpolation are the columns that are not outputs; no output is an error,
aviary/utils/data_interpolator_builder.py:76-101 (the labels of the inputs are not handed on). -/
def interpInputs (t : Table) : Except MapErr (List String) :=
  if t.outputs = [] then .error .insufficient else .ok (t.keys.filter fun k => decide (k ∉ t.outputs))

/-- aviary/subsystems/propulsion/propeller/propeller_map.py:49-103. The local `outputs` is only bound when
the file is read. Warnings and prints are left out. -/
def setup (s : Source) : Except MapErr Built :=
  let keys := match s with
    | .file t => t.keys
    | .memory ks => ks
  if machTypes keys = [] then .error .noMach
  else
    let helical := decide (machTypes keys = ["helical_mach"])
    match s with
    | .memory _ => .error .unboundOutputs
    | .file t => match interpInputs t with
      | .error e => .error e
      | .ok ins => .ok ⟨helical, ins⟩

/-- A builder as the group sees it: its name, whether `build_pre_mission` returns a system, and the
overrides that system lists, if any, aviary/subsystems/premission.py:45-70. -/
structure Builder where
  name : String
  builds : Bool
  overrides : Option (List String)

/-- `add_subsystem` refuses a name already in use; `none` is that error. aviary/subsystems/premission.py:45-60 -/
def addAll (done : List Builder) : List Builder → Option (List Builder)
  | [] => some done
  | b :: bs =>
    if b.builds then
      if b.name ∈ done.map Builder.name then none else addAll (done ++ [b]) bs
    else addAll done bs

/-- What `getattr(getattr(self, name), 'code_origin_overrides')` gives; every exception is swallowed,
aviary/subsystems/premission.py:62-70. -/
def overridesOf (done : List Builder) (name : String) : List String :=
  match done.find? (fun d => d.name == name) with
  | none => []
  | some d => d.overrides.getD []

/-- aviary/subsystems/premission.py:62-70 -/
def configure (done bs : List Builder) : List String :=
  bs.flatMap fun b => overridesOf done b.name

/-- Options of the FLOPS mass groups, aviary/subsystems/mass/flops_based/mass_premission.py:74-80,
aviary/subsystems/mass/flops_based/wing_group.py:24-33. -/
structure Opts where
  alt : Bool
  bwb : Bool
  detailed : Bool

/-- The components in order, aviary/subsystems/mass/flops_based/mass_premission.py:82-327. -/
def massGroup (o : Opts) : List (String × String) :=
  [("cargo", "PayloadGroup"), ("cargo_containers", "TransportCargoContainersMass"),
    ("engine_controls", "TransportEngineCtrlsMass"), ("avionics", "TransportAvionicsMass"),
    ("fuel_capacity_group", "FuelCapacityGroup"), ("engine_mass", "EngineMass")] ++
  (if o.alt then
    [("fuel_system", "AltFuelSystemMass"), ("AC", "AltAirCondMass"), ("engine_oil", "AltEngineOilMass"),
      ("furnishing_base", "AltFurnishingsGroupMassBase"), ("furnishings", "AltFurnishingsGroupMass"),
      ("hydraulics", "AltHydraulicsGroupMass"), ("pass_service", "AltPassengerServiceMass"),
      ("unusable_fuel", "AltUnusableFuelMass"), ("electrical", "AltElectricalMass"),
      ("surf_ctrl", "AltSurfaceControlMass"), ("fuselage", "AltFuselageMass"),
      ("htail", "AltHorizontalTailMass"), ("vert_tail", "AltVerticalTailMass")]
  else
    [("fuel_system", "TransportFuelSystemMass"), ("AC", "TransportAirCondMass"),
      ("engine_oil", "TransportEngineOilMass"),
      ("furnishings", if o.bwb then "BWBFurnishingsGroupMass" else "TransportFurnishingsGroupMass"),
      ("hydraulics", "TransportHydraulicsGroupMass"), ("pass_service", "PassengerServiceMass"),
      ("unusable_fuel", "TransportUnusableFuelMass"), ("electrical", "ElectricalMass"),
      ("surf_ctrl", "SurfaceControlMass"),
      ("fuselage", if o.bwb then "BWBFuselageMass" else "TransportFuselageMass"),
      ("htail", "HorizontalTailMass"), ("vert_tail", "VerticalTailMass")]) ++
  [("starter", "TransportStarterMass"), ("anti_icing", "AntiIcingMass"), ("apu", "TransportAPUMass"),
    ("cabin_crew", "CabinCrewMass"), ("flight_crew", "FlightCrewMass"),
    ("instruments", "TransportInstrumentMass"), ("misc_engine", "EngineMiscMass"),
    ("nacelle", "NacelleMass"), ("paint", "PaintMass"), ("thrust_rev", "ThrustReverserMass"),
    ("landing_group", "LandingMassGroup"), ("canard", "CanardMass"), ("fin", "FinMass"),
    ("wing_group", "WingMassGroup"), ("mass_summation", "MassSummation")]

/-- aviary/subsystems/mass/flops_based/wing_group.py:35-100 -/
def wingGroup (o : Opts) : List (String × String) :=
  [("engine_pod_mass", "EnginePodMass"),
    ("wing_bending_material_factor",
      if o.detailed then (if o.bwb then "BWBDetailedWingBendingFact" else "DetailedWingBendingFact")
      else "SimpleWingBendingFact"),
    ("wing_misc", if o.bwb then "BWBWingMiscMass" else "WingMiscMass"),
    ("wing_shear_control", "WingShearControlMass"), ("wing_bending", "WingBendingMass")] ++
  (if o.bwb then [("aftbody", "BWBAftBodyMass")] else []) ++
  [("wing_total", "WingTotalMass")]

end Verif.PropMap
