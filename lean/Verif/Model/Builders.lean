import Mathlib.Data.Rat.Defs
import Mathlib.Data.List.Dedup
import Mathlib.Data.List.Infix
import Mathlib.Data.Nat.Notation

/-!
# Builders of the core subsystems

The aerodynamics, mass and geometry builders as total functions; exceptions are values.  A group built is represented by its class
and the option names given to its constructor.  Numbers are rational.
-/

namespace Verif.Builders

/-! ## Core aerodynamics builder -/

/-- `COMPUTED_CORE_INPUTS`.
`aviary/subsystems/aerodynamics/aerodynamics_builder.py:772-812`. -/
def computedCore : List String :=
  ["aircraft:design:base_area",
   "aircraft:design:lift_dependent_drag_coeff_factor",
   "aircraft:design:subsonic_drag_coeff_factor",
   "aircraft:design:supersonic_drag_coeff_factor",
   "aircraft:design:zero_lift_drag_coeff_factor",
   "aircraft:fuselage:characteristic_length",
   "aircraft:fuselage:cross_section",
   "aircraft:fuselage:diameter_to_wing_span",
   "aircraft:fuselage:fineness",
   "aircraft:fuselage:laminar_flow_lower",
   "aircraft:fuselage:laminar_flow_upper",
   "aircraft:fuselage:length_to_diameter",
   "aircraft:fuselage:wetted_area",
   "aircraft:wing:area",
   "aircraft:wing:aspect_ratio",
   "aircraft:wing:characteristic_length",
   "aircraft:wing:fineness",
   "aircraft:wing:laminar_flow_lower",
   "aircraft:wing:laminar_flow_upper",
   "aircraft:wing:max_camber_at_70_semispan",
   "aircraft:wing:span_efficiency_factor",
   "aircraft:wing:sweep",
   "aircraft:wing:taper_ratio",
   "aircraft:wing:thickness_to_chord",
   "aircraft:wing:wetted_area",
   "aircraft:design:lift_coefficient",
   "aircraft:design:mach",
   "aircraft:design:percent_excrescence_drag"]

/-- `COMPUTED_CORE_INPUTS_BWB`.
`aviary/subsystems/aerodynamics/aerodynamics_builder.py:814-844`. -/
def computedCoreBwb : List String :=
  ["aircraft:design:base_area",
   "aircraft:design:lift_dependent_drag_coeff_factor",
   "aircraft:design:subsonic_drag_coeff_factor",
   "aircraft:design:supersonic_drag_coeff_factor",
   "aircraft:design:zero_lift_drag_coeff_factor",
   "aircraft:fuselage:characteristic_length",
   "aircraft:fuselage:cross_section",
   "aircraft:fuselage:diameter_to_wing_span",
   "aircraft:fuselage:fineness",
   "aircraft:fuselage:laminar_flow_lower",
   "aircraft:fuselage:laminar_flow_upper",
   "aircraft:fuselage:length_to_diameter",
   "aircraft:fuselage:wetted_area",
   "aircraft:wing:area",
   "aircraft:wing:aspect_ratio",
   "aircraft:wing:characteristic_length",
   "aircraft:wing:fineness",
   "aircraft:wing:laminar_flow_lower",
   "aircraft:wing:laminar_flow_upper",
   "aircraft:wing:max_camber_at_70_semispan",
   "aircraft:wing:span_efficiency_factor",
   "aircraft:wing:sweep",
   "aircraft:wing:taper_ratio",
   "aircraft:wing:thickness_to_chord",
   "aircraft:wing:wetted_area",
   "aircraft:design:lift_coefficient",
   "aircraft:design:mach",
   "aircraft:design:percent_excrescence_drag"]

/-- `HORIZONTAL_TAIL_INPUTS`.
`aviary/subsystems/aerodynamics/aerodynamics_builder.py:846-852`. -/
def hTail : List String :=
  ["aircraft:horizontal_tail:characteristic_length",
   "aircraft:horizontal_tail:fineness",
   "aircraft:horizontal_tail:laminar_flow_lower",
   "aircraft:horizontal_tail:laminar_flow_upper",
   "aircraft:horizontal_tail:wetted_area"]

/-- `VERTICAL_TAIL_INPUTS`.
`aviary/subsystems/aerodynamics/aerodynamics_builder.py:854-860`. -/
def vTail : List String :=
  ["aircraft:vertical_tail:characteristic_length",
   "aircraft:vertical_tail:fineness",
   "aircraft:vertical_tail:laminar_flow_lower",
   "aircraft:vertical_tail:laminar_flow_upper",
   "aircraft:vertical_tail:wetted_area"]

/-- `TABULAR_CORE_INPUTS`.
`aviary/subsystems/aerodynamics/aerodynamics_builder.py:862-866`. -/
def tabularCore : List String :=
  ["aircraft:wing:area",
   "aircraft:design:subsonic_drag_coeff_factor",
   "aircraft:design:supersonic_drag_coeff_factor"]

/-- `LOW_SPEED_CORE_INPUTS`.
`aviary/subsystems/aerodynamics/aerodynamics_builder.py:869-875`. -/
def lowSpeedCore : List String :=
  ["aircraft:wing:area",
   "aircraft:wing:aspect_ratio",
   "aircraft:wing:height",
   "aircraft:wing:span",
   "mission:takeoff:drag_coefficient_min"]

/-- `ENGINE_SIZED_INPUTS`.
`aviary/subsystems/aerodynamics/aerodynamics_builder.py:878-884`. -/
def engineSized : List String :=
  ["aircraft:nacelle:characteristic_length",
   "aircraft:nacelle:fineness",
   "aircraft:nacelle:laminar_flow_lower",
   "aircraft:nacelle:laminar_flow_upper",
   "aircraft:nacelle:wetted_area"]

/-- `AERO_2DOF_INPUTS`.
`aviary/subsystems/aerodynamics/aerodynamics_builder.py:886-926`. -/
def aero2dof : List String :=
  ["aircraft:design:cg_delta",
   "aircraft:design:drag_coefficient_increment",
   "aircraft:design:static_margin",
   "aircraft:fuselage:avg_diameter",
   "aircraft:fuselage:flat_plate_area_increment",
   "aircraft:fuselage:length",
   "aircraft:fuselage:wetted_area",
   "aircraft:fuselage:form_factor",
   "aircraft:horizontal_tail:area",
   "aircraft:horizontal_tail:average_chord",
   "aircraft:horizontal_tail:form_factor",
   "aircraft:horizontal_tail:moment_ratio",
   "aircraft:horizontal_tail:span",
   "aircraft:horizontal_tail:sweep",
   "aircraft:horizontal_tail:vertical_tail_mount_location",
   "aircraft:nacelle:avg_length",
   "aircraft:nacelle:form_factor",
   "aircraft:nacelle:surface_area",
   "aircraft:strut:area_ratio",
   "aircraft:strut:chord",
   "aircraft:strut:fuselage_interference_factor",
   "aircraft:vertical_tail:area",
   "aircraft:vertical_tail:average_chord",
   "aircraft:vertical_tail:form_factor",
   "aircraft:vertical_tail:span",
   "aircraft:wing:average_chord",
   "aircraft:wing:area",
   "aircraft:wing:aspect_ratio",
   "aircraft:wing:form_factor",
   "aircraft:wing:fuselage_interference_factor",
   "aircraft:wing:max_thickness_location",
   "aircraft:wing:min_pressure_location",
   "aircraft:wing:span",
   "aircraft:wing:sweep",
   "aircraft:wing:taper_ratio",
   "aircraft:wing:thickness_to_chord_root",
   "aircraft:wing:thickness_to_chord_unweighted",
   "aircraft:wing:vertical_mount_location",
   "aircraft:wing:zero_lift_angle"]

/-- `AERO_2DOF_TABULAR_LS_INPUTS`.
`aviary/subsystems/aerodynamics/aerodynamics_builder.py:928-933`. -/
def aeroTabLs : List String :=
  ["mission:takeoff:airport_altitude",
   "aircraft:wing:flap_deflection_takeoff",
   "aircraft:wing:span",
   "aircraft:wing:height"]

/-- `AERO_LS_2DOF_INPUTS`.
`aviary/subsystems/aerodynamics/aerodynamics_builder.py:935-944`. -/
def aeroLs : List String :=
  ["mission:takeoff:airport_altitude",
   "aircraft:wing:flap_deflection_takeoff",
   "mission:takeoff:drag_coefficient_flap_increment",
   "mission:takeoff:lift_coefficient_flap_increment",
   "mission:takeoff:lift_coefficient_max",
   "aircraft:wing:height",
   "aircraft:wing:flap_chord_ratio",
   "aircraft:design:gross_mass"]

/-- `AERO_CLEAN_2DOF_INPUTS`.
`aviary/subsystems/aerodynamics/aerodynamics_builder.py:946-953`. -/
def aeroClean : List String :=
  ["aircraft:design:drag_divergence_shift",
   "aircraft:design:lift_coefficient_max_flaps_up",
   "aircraft:design:lift_dependent_drag_coeff_factor",
   "aircraft:design:subsonic_drag_coeff_factor",
   "aircraft:design:supersonic_drag_coeff_factor",
   "aircraft:design:zero_lift_drag_coeff_factor"]

/-- `FLOPS`, `GASP`: members of `LegacyCode`, aviary/subsystems/aerodynamics/aerodynamics_builder.py:45-48. -/
inductive Origin | flops | gasp
  deriving DecidableEq, Repr

/-- The exceptions that occur,
aviary/subsystems/aerodynamics/aerodynamics_builder.py:149, 167, 181-199 (`Err.key`: missing entry or undeclared option). -/
inductive Err | value | key | warning | attribute | type
  deriving DecidableEq, Repr

/-- Value of an option: a flag, a file name, or a `NamedValues` table given by its columns,
aviary/subsystems/aerodynamics/aerodynamics_builder.py:432-452. -/
inductive Val
  | flag (b : Bool)
  | text (s : String)
  | table (cols : List (String × List ℚ))
  deriving DecidableEq, Repr

/-- Python's truth value of an option (`NamedValues` of at least one column are true),
aviary/subsystems/aerodynamics/aerodynamics_builder.py:152-155. -/
def Val.truth : Val → Bool
  | .flag b => b
  | .text s => s ≠ ""
  | .table c => !c.isEmpty

/-- `subsystem_options`: the entry `'method'` and the others in order,
aviary/subsystems/aerodynamics/aerodynamics_builder.py:106-117. -/
structure Opts where
  method : Option String
  rest : List (String × Val)
  deriving DecidableEq, Repr

/-- `subsystem_options[k]` for the other keys, aviary/subsystems/aerodynamics/aerodynamics_builder.py:106-117. -/
def Opts.get (o : Opts) (k : String) : Option Val := o.rest.lookup k

/-- `k in subsystem_options`, aviary/subsystems/aerodynamics/aerodynamics_builder.py:152. -/
def Opts.has (o : Opts) (k : String) : Bool := (o.get k).isSome

/-- The keys, aviary/subsystems/aerodynamics/aerodynamics_builder.py:115-117. -/
def Opts.keys (o : Opts) : List String := o.rest.map (·.1)

/-- Group classes used by `build_mission`, aviary/subsystems/aerodynamics/aerodynamics_builder.py:106-219. -/
inductive Cls | computed | takeoff | tabular | cruise | tabCruise | lowSpeed | tabLowSpeed
  deriving DecidableEq, Repr

/-- Names declared by `initialize` of each class; a constructor given another name raises a KeyError (OpenMDAO).
aviary/subsystems/aerodynamics/flops_based/computed_aero_group.py:22-26,
aviary/subsystems/aerodynamics/flops_based/takeoff_aero_group.py:19-75,
aviary/subsystems/aerodynamics/flops_based/tabular_aero_group.py:54-86,
aviary/subsystems/aerodynamics/gasp_based/gaspaero.py:2437-2453,
aviary/subsystems/aerodynamics/gasp_based/table_based.py:36-64,
aviary/subsystems/aerodynamics/gasp_based/gaspaero.py:2503-2531,
aviary/subsystems/aerodynamics/gasp_based/table_based.py:120-178. -/
def Cls.declared : Cls → List String
  | .computed => ["num_nodes", "gamma"]
  | .takeoff => ["num_nodes", "ground_altitude", "use_spoilers", "spoiler_drag_coefficient", "spoiler_lift_coefficient",
      "angles_of_attack", "lift_coefficients", "drag_coefficients", "lift_coefficient_factor", "drag_coefficient_factor",
      "landing_gear_up", "aircraft:landing_gear:drag_coefficient"]
  | .tabular => ["num_nodes", "CD0_data", "CDI_data", "structured", "connect_training_data"]
  | .cruise => ["num_nodes", "aircraft:design:type", "output_alpha", "input_atmos"]
  | .tabCruise => ["num_nodes", "aero_data", "connect_training_data", "structured", "extrapolate"]
  | .lowSpeed => ["num_nodes", "aircraft:design:type", "retract_gear", "retract_flaps", "lift_required", "input_atmos"]
  | .tabLowSpeed => ["num_nodes", "free_aero_data", "flaps_aero_data", "ground_aero_data", "connect_training_data", "structured",
      "extrapolate", "retract_gear", "retract_flaps"]

/-- A group: class, option names given to the constructor besides `num_nodes`, and the name of the subsystem inside the supergroup
with the angle of attack balance, if there is one, aviary/subsystems/aerodynamics/aerodynamics_builder.py:201-217. -/
structure Grp where
  cls : Cls
  kwargs : List String
  inner : Option String
  deriving DecidableEq, Repr

/-- Constructor call with keyword arguments `ks`: KeyError for a name that is not declared, e.g.
aviary/subsystems/aerodynamics/aerodynamics_builder.py:122. -/
def construct (c : Cls) (ks : List String) : Except Err Grp :=
  if ks.all (fun k => c.declared.contains k) then .ok ⟨c, ks, none⟩ else .error .key

/-- The keys without `k` (`aero_opts.pop(k)`), aviary/subsystems/aerodynamics/aerodynamics_builder.py:131-134. -/
def drop (k : String) (ks : List String) : List String := ks.filter (fun x => decide (x ≠ k))

/-- FLOPS branch of `build_mission`, aviary/subsystems/aerodynamics/aerodynamics_builder.py:118-149. -/
def buildFlops (o : Opts) : Except Err Grp :=
  match o.method with
  | none => construct .computed []
  | some m =>
    if m = "computed" then construct .computed o.keys
    else if m = "low_speed" then construct .takeoff o.keys
    else if m = "tabular" then
      if o.has "CD0_data" then
        if o.has "CDI_data" then
          construct .tabular (["CD0_data", "CDI_data"] ++ drop "CDI_data" (drop "CD0_data" o.keys))
        else .error .key
      else .error .key
    else .error .value

/-- The three table names asked for by `build_mission`, aviary/subsystems/aerodynamics/aerodynamics_builder.py:175. -/
def lsTables : List String := ["free_aero_data", "free_flaps_data", "free_ground_data"]

/-- `data_tables`, aviary/subsystems/aerodynamics/aerodynamics_builder.py:173-176. -/
def dataTables (ks : List String) : List Bool := lsTables.map (fun k => ks.contains k)

/-- Elements of the set difference of the message: names on the left, truth values on the right,
aviary/subsystems/aerodynamics/aerodynamics_builder.py:183-185. -/
inductive Item | name (s : String) | flag (b : Bool)
  deriving DecidableEq, Repr

/-- `var_msg`, aviary/subsystems/aerodynamics/aerodynamics_builder.py:183-185. -/
def varMsg (ks : List String) : List Item :=
  (lsTables.map Item.name).filter (fun x => !((dataTables ks).map Item.flag).contains x)

/-- GASP branch of `build_mission` before the supergroup, `ks` are the keys without `solve_alpha`.
aviary/subsystems/aerodynamics/aerodynamics_builder.py:157-199. -/
def buildGaspGroup (method : Option String) (ks : List String) : Except Err Grp :=
  match method with
  | none => construct .cruise []
  | some m =>
    if m = "cruise" then construct .cruise ks
    else if m = "tabular_cruise" then
      if ks.contains "aero_data" then construct .tabCruise ("aero_data" :: drop "aero_data" ks) else .error .key
    else if m = "low_speed" then construct .lowSpeed ks
    else if m = "tabular_low_speed" then
      if (dataTables ks).all id then construct .tabLowSpeed ks else .error .warning
    else .error .value

/-- `solve_alpha`, aviary/subsystems/aerodynamics/aerodynamics_builder.py:152-155. -/
def solveAlpha (o : Opts) : Bool := ((o.get "solve_alpha").map Val.truth).getD false

/-- GASP branch of `build_mission`, aviary/subsystems/aerodynamics/aerodynamics_builder.py:151-217. -/
def buildGasp (o : Opts) : Except Err Grp :=
  match buildGaspGroup o.method (drop "solve_alpha" o.keys) with
  | .error e => .error e
  | .ok g =>
    if solveAlpha o then .ok { g with inner := some (o.method.getD "None" ++ "_aero") } else .ok g

/-- `CoreAerodynamicsBuilder.build_mission`, aviary/subsystems/aerodynamics/aerodynamics_builder.py:106-219. -/
def buildMission (c : Origin) (o : Opts) : Except Err (Option Grp) :=
  if o.method = some "external" then .ok none
  else match c with
    | .flops => (buildFlops o).map some
    | .gasp => (buildGasp o).map some

/-- An entry of a promotes list: a name or pattern, or a pair renaming the first to the second,
aviary/subsystems/aerodynamics/aerodynamics_builder.py:262-270. -/
inductive Promote | name (s : String) | rename (s t : String)
  deriving DecidableEq, Repr

/-- The truth value of `subsystem_options['output_alpha']`, if it is there,
aviary/subsystems/aerodynamics/aerodynamics_builder.py:301-307. -/
def outAlpha (o : Opts) : Option Bool := (o.get "output_alpha").map Val.truth

/-- `mission_inputs`; `none` for `subsystem_options=None`, the default.
aviary/subsystems/aerodynamics/aerodynamics_builder.py:229-312. -/
def missionInputs (c : Origin) (so : Option Opts) : Except Err (List Promote) :=
  match so with
  | none => .error .type
  | some o =>
    match c with
    | .flops =>
      let m := o.method.getD "computed"
      if m = "computed" then
        .ok (["static_pressure", "mach", "temperature", "mass", "aircraft:*"].map .name)
      else if m = "low_speed" then
        .ok (["angle_of_attack", "altitude", "flight_path_angle", "mission:takeoff:drag_coefficient_min",
          "aircraft:wing:aspect_ratio", "aircraft:wing:height", "aircraft:wing:span", "dynamic_pressure",
          "aircraft:wing:area"].map .name)
      else if m = "tabular" then
        .ok (["altitude", "mach", "mass", "velocity", "density", "aircraft:*"].map .name)
      else .error .value
    | .gasp =>
      let m := o.method.getD "cruise"
      if m = "low_speed" ∨ m = "tabular_low_speed" then
        .ok [.name "*", .rename "airport_alt" "mission:takeoff:airport_altitude",
          .rename "CL_max_flaps" "mission:takeoff:lift_coefficient_max",
          .rename "dCL_flaps_model" "mission:takeoff:lift_coefficient_flap_increment",
          .rename "dCD_flaps_model" "mission:takeoff:drag_coefficient_flap_increment",
          .rename "flap_defl" "aircraft:wing:flap_deflection_takeoff"]
      else if m = "cruise" ∨ m = "tabular_cruise" then
        if outAlpha o = some true then .ok [.name "*", .rename "lift_req" "weight"] else .ok [.name "*"]
      else .error .value

/-- The four outputs common to all methods, e.g. aviary/subsystems/aerodynamics/aerodynamics_builder.py:322-327. -/
def polar : List String := ["drag", "lift", "drag_coefficient", "lift_coefficient"]

/-- `mission_outputs`, aviary/subsystems/aerodynamics/aerodynamics_builder.py:314-377. -/
def missionOutputs (c : Origin) (so : Option Opts) : Except Err (List String) :=
  match so with
  | none => .error .type
  | some o =>
    match c with
    | .flops => .ok polar
    | .gasp =>
      let m := o.method.getD "cruise"
      if m = "low_speed" ∨ m = "tabular_low_speed" then .ok (polar ++ ["flap_factor", "gear_factor"])
      else if m = "tabular_cruise" then .ok polar
      else if m = "cruise" then
        match outAlpha o with
        | some true => .ok (polar ++ ["angle_of_attack"])
        | some false => .ok ["*"]
        | none => .ok (polar ++ ["CL_max"])
      else .error .value

/-- The parts of `aviary_inputs` that `get_parameters` reads: variables present, whether the design type is a blended wing body,
numbers of tails (1 when absent) and the number of engine types.
aviary/subsystems/aerodynamics/aerodynamics_builder.py:425, 497-528, 669-672. -/
structure Inputs where
  present : String → Bool
  bwb : Bool
  numH : ℤ
  numV : ℤ
  engineTypes : ℕ

/-- What the options dictionary of a parameter holds: the value given by the user, the default of the metadata, the default with a
shape, a shape only, or ones of a shape, aviary/subsystems/aerodynamics/aerodynamics_builder.py:436-565. -/
inductive Src | user | default | sized (n : ℕ) | shape (s : List ℕ) | ones (s : List ℕ)
  deriving DecidableEq, Repr

/-- `np.unique(x).size`, aviary/subsystems/aerodynamics/aerodynamics_builder.py:442-452. -/
def unique (x : List ℚ) : ℕ := x.dedup.length

/-- Shape of a table with the first column `x` and further columns: numbers of distinct values when the first column repeats, lengths
otherwise.  aviary/subsystems/aerodynamics/aerodynamics_builder.py:442-452 (two columns), 637-648 (three columns). -/
def tableShape (x : List ℚ) (more : List (List ℚ)) : List ℕ :=
  if x.length > unique x then (x :: more).map unique else (x :: more).map List.length

/-- Column of a table; `get_item` of an absent name is a KeyError, aviary/utils/named_values.py:79-86. -/
def column (cols : List (String × List ℚ)) (k : String) : Except Err (List ℚ) :=
  match cols.lookup k with
  | some l => .ok l
  | none => .error .key

/-- Default or user's value of a variable, aviary/subsystems/aerodynamics/aerodynamics_builder.py:551-565. -/
def valueOf (i : Inputs) (v : String) : String × Src := (v, if i.present v then .user else .default)

/-- The entry for one drag table, aviary/subsystems/aerodynamics/aerodynamics_builder.py:436-494. -/
def polarEntry (i : Inputs) (d : Val) (var : String) (k1 k2 : String) : Except Err (List (String × Src)) :=
  match d with
  | .table cols =>
    match column cols k1, column cols k2 with
    | .ok x, .ok y => .ok [(var, if i.present var then .user else .shape (tableShape x [y]))]
    | _, _ => .error .key
  | _ => .ok []

/-- The tables of the FLOPS method `tabular`, aviary/subsystems/aerodynamics/aerodynamics_builder.py:432-494. -/
def flopsTables (i : Inputs) (o : Opts) : Except Err (List (String × Src)) :=
  match o.get "CD0_data" with
  | none => .error .key
  | some d0 =>
    match polarEntry i d0 "aircraft:design:lift_independent_drag_polar" "altitude" "mach" with
    | .error e => .error e
    | .ok p =>
      match o.get "CDI_data" with
      | none => .error .key
      | some di =>
        match polarEntry i di "aircraft:design:lift_dependent_drag_polar" "mach" "lift_coefficient" with
        | .error e => .error e
        | .ok q => .ok (p ++ q)

/-- `core_inputs_computed`, aviary/subsystems/aerodynamics/aerodynamics_builder.py:530-549. -/
def coreComputed (i : Inputs) : List String :=
  if i.bwb then
    if i.numH = 0 ∧ i.numV = 0 then computedCoreBwb
    else if i.numH = 0 then computedCoreBwb ++ vTail
    else if i.numV = 0 then computedCoreBwb ++ hTail
    else computedCoreBwb ++ hTail ++ vTail
  else
    if i.numH = 0 ∧ i.numV = 0 then computedCore
    else if i.numH = 0 then computedCore ++ vTail
    else if i.numV = 0 then computedCore ++ hTail
    else computedCore ++ hTail ++ vTail

/-- FLOPS branch of `get_parameters`; `o.method` is not `'external'`.
aviary/subsystems/aerodynamics/aerodynamics_builder.py:428-614. -/
def paramsFlops (i : Inputs) (o : Opts) : Except Err (List (String × Src)) :=
  let m := o.method.getD "computed"
  if m = "computed" then
    .ok ((coreComputed i).map (valueOf i) ++ engineSized.map (fun v => (v, .sized i.engineTypes)))
  else if m = "tabular" then (flopsTables i o).map (· ++ tabularCore.map (valueOf i))
  else if m = "low_speed" then .ok (lowSpeedCore.map (valueOf i))
  else .ok []

/-- The tables of `solve_alpha`, aviary/subsystems/aerodynamics/aerodynamics_builder.py:626-666. -/
def gaspTables (i : Inputs) (o : Opts) : Except Err (List (String × Src)) :=
  match o.get "aero_data" with
  | none => .error .key
  | some (.table cols) =>
    match column cols "altitude", column cols "mach", column cols "angle_of_attack" with
    | .ok x, .ok y, .ok z =>
      let s := tableShape x [y, z]
      .ok [("aircraft:design:lift_polar", if i.present "aircraft:design:lift_polar" then .user else .ones s),
        ("aircraft:design:drag_polar", if i.present "aircraft:design:drag_polar" then .user else .ones s)]
    | _, _, _ => .error .key
  | some _ => .ok []

/-- Variables added for a blended wing body, aviary/subsystems/aerodynamics/aerodynamics_builder.py:688-693. -/
def bwbExtra : List String :=
  ["aircraft:fuselage:lift_curve_slope_mach0", "aircraft:fuselage:hydraulic_diameter", "aircraft:fuselage:planform_area",
   "aircraft:wing:exposed_area", "aircraft:wing:zero_lift_angle"]

/-- GASP branch of `get_parameters`.  Python sets are lists without repetition.  `all_vars` is a list for the tabular methods, which
has no `add`.  aviary/subsystems/aerodynamics/aerodynamics_builder.py:617-712. -/
def paramsGasp (i : Inputs) (o : Opts) : Except Err (List (String × Src)) :=
  let m := o.method.getD "cruise"
  let tabular := "tabular".toList <:+: m.toList
  let tables := if solveAlpha o ∧ tabular then gaspTables i o else .ok []
  match tables with
  | .error e => .error e
  | .ok t =>
    let rest (vs : List String) (isSet : Bool) : Except Err (List (String × Src)) :=
      if i.bwb then
        if isSet then .ok (t ++ (vs ++ bwbExtra).dedup.map (valueOf i)) else .error .attribute
      else .ok (t ++ vs.map (valueOf i))
    if m = "low_speed" then rest (aero2dof ++ aeroLs).dedup true
    else if m = "cruise" then rest (aero2dof ++ aeroClean).dedup true
    else if m = "tabular_low_speed" then rest aeroTabLs false
    else if m = "tabular_cruise" then rest tabularCore false
    else .error .value

/-- `get_parameters`, aviary/subsystems/aerodynamics/aerodynamics_builder.py:379-712, for `aviary_inputs` given. -/
def getParameters (c : Origin) (i : Inputs) (so : Option Opts) : Except Err (List (String × Src)) :=
  let o := so.getD ⟨none, []⟩
  if o.method = some "external" then .ok []
  else match c with
    | .flops => paramsFlops i o
    | .gasp => paramsGasp i o

/-- Whether an entry of a promotes list brings a name to the top: equality, `'*'`, or a pattern of the form `prefix*`
(OpenMDAO), aviary/subsystems/aerodynamics/aerodynamics_builder.py:229-312. -/
def Promote.covers : Promote → String → Bool
  | .name p, v => p = v || (p.toList.getLast? = some '*' && p.toList.dropLast.isPrefixOf v.toList)
  | .rename _ t, v => t = v

/-- `get_timeseries`, aviary/subsystems/aerodynamics/aerodynamics_builder.py:714-732. -/
def timeseries (so : Option Opts) : List String :=
  if (so.getD ⟨none, []⟩).method ≠ some "external" then ["drag_coefficient", "lift_coefficient"] else []

/-- Pre-mission systems, aviary/subsystems/aerodynamics/aerodynamics_builder.py:86-104. -/
inductive Pre | liftOverDrag | gasp | flops
  deriving DecidableEq, Repr

/-- `build_pre_mission`, aviary/subsystems/aerodynamics/aerodynamics_builder.py:86-104. -/
def preMission (c : Origin) (tabular : Bool) (o : Opts) : Option Pre :=
  if tabular then some .liftOverDrag
  else if o.method = some "external" then none
  else match c with
    | .gasp => some .gasp
    | .flops => some .flops

/-- `get_pre_mission_bus_variables`, aviary/subsystems/aerodynamics/aerodynamics_builder.py:734-749. -/
def busVars (c : Origin) (tabular : Bool) : List String :=
  if c = .gasp ∧ !tabular then
    ["interference_independent_of_shielded_area", "drag_loss_due_to_shielded_wing_area"] else []

/-! ## Geometry builder -/

/-- The argument `code_origin`: absent, one member, or a tuple, aviary/subsystems/geometry/geometry_builder.py:41-64. -/
inductive GeoOrigin | none | one (c : Origin) | tuple (l : List Origin)
  deriving DecidableEq, Repr

/-- Geometry systems, aviary/subsystems/geometry/geometry_builder.py:66-98. -/
inductive Geo | combined | size | prep
  deriving DecidableEq, Repr

/-- The check of `__init__`; `set(None)` is a TypeError.
aviary/subsystems/geometry/geometry_builder.py:63-64. -/
def geoInit : GeoOrigin → Except Err GeoOrigin
  | .none => .error .type
  | .one c => .ok (.one c)
  | .tuple l => if .flops ∈ l ∧ .gasp ∈ l then .ok (.tuple l) else .error .value

/-- `build_pre_mission`, aviary/subsystems/geometry/geometry_builder.py:66-98. -/
def geoPre (c : GeoOrigin) (method : Option String) : Option Geo :=
  if method ≠ some "external" then
    if c = .tuple [.flops, .gasp] then some .combined
    else if c = .one .gasp then some .size
    else if c = .one .flops then some .prep
    else none
  else none

/-! ## Values for reports -/

/-- A value found: a number, an array, or a text, aviary/interface/utils.py:38-90. -/
inductive RVal | num (x : ℚ) | arr (l : List ℚ) | text (s : String)
  deriving DecidableEq, Repr

/-- What the search sees of one variable: its units in the metadata (`none` if the variable or the units are missing), the value in
the problem in these (or its own) units, and the item of `aviary_inputs`, aviary/interface/utils.py:38-90. -/
structure Lookup where
  md : Option String
  problem : Option RVal
  inputs : Option (RVal × String)

/-- Rounding is left out; a list of one element loses its brackets, aviary/interface/utils.py:79-85. -/
def unbox : RVal → RVal
  | .arr [x] => .num x
  | v => v

/-- Name of the units in the report, aviary/interface/utils.py:86-89. -/
def unitName : Option String → String
  | none => "unknown"
  | some u => if u = "" then "unknown" else if u = "unitless" then "-" else u

/-- `find_variable_in_problem`, aviary/interface/utils.py:38-90.  Empty units in the metadata count as missing.  `conv` gives the
value of `aviary_inputs` in other units. -/
def findVar (conv : RVal → String → String → RVal) (l : Lookup) : RVal × String :=
  match l.md, l.problem, l.inputs with
  | some u, some v, _ => (unbox v, unitName (some u))
  | none, some v, _ => (unbox v, "unknown")
  | some u, none, some (v, w) => (unbox (conv v w u), unitName (some u))
  | none, none, some (v, w) => (unbox v, unitName (some w))
  | _, none, none => (.text "Not Found in Model", "unknown")

/-- The rows of one engine table of the mass report: value per engine and value times number.  The loop variable `val` is
overwritten by the element the first time.  A text times a number is repeated, which is left out (error).
aviary/subsystems/mass/mass_builder.py:167-170, 204-207. -/
def engineRows : RVal → List ℚ → ℕ → Except Err (List (ℚ × ℚ))
  | _, [], _ => .ok []
  | .num x, n :: ns, i => (engineRows (.num x) ns (i + 1)).map ((x, x * n) :: ·)
  | .arr l, n :: ns, i =>
    match l[i]? with
    | some x => (engineRows (.num x) ns (i + 1)).map ((x, x * n) :: ·)
    | none => .error .key
  | .text _, _ :: _, _ => .error .type

/-- Sum of two masses in the report (crew, fuel); `conv v from to` is `convert_units`, which raises for unknown units.  `none` when
neither is found, so no row is written.  aviary/subsystems/mass/mass_builder.py:318-331, 388-401. -/
def sumRow (conv : ℚ → String → String → Except Err ℚ) (a b : RVal × String) : Except Err (Option (ℚ × String)) :=
  if a.1 ≠ .text "Not Found in Model" ∨ b.1 ≠ .text "Not Found in Model" then
    let s : ℚ := match a.1 with | .num x => x | _ => 0
    match b.1 with
    | .num y =>
      if a.2 ≠ b.2 then (conv y b.2 a.2).map (fun z => some (s + z, a.2)) else .ok (some (s + y, a.2))
    | _ => .ok (some (s, a.2))
  else .ok none

end Verif.Builders
