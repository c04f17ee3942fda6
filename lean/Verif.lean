import Verif.Comp.AerodynamicsAeroCommon
import Verif.Comp.AerodynamicsFlopsBasedDrag
import Verif.Comp.AerodynamicsFlopsBasedGroundEffect
import Verif.Comp.AerodynamicsFlopsBasedInducedDrag
import Verif.Comp.AerodynamicsFlopsBasedLift
import Verif.Comp.AerodynamicsFlopsBasedPremissionAero
import Verif.Comp.AerodynamicsFlopsBasedTabularAeroGroup
import Verif.Comp.AerodynamicsGaspBasedCommon
import Verif.Comp.AerodynamicsGaspBasedGaspAeroCoeffs
import Verif.Comp.AerodynamicsGaspBasedGaspaero1
import Verif.Comp.AerodynamicsGaspBasedGaspaero2
import Verif.Comp.AerodynamicsGaspBasedGaspaero3
import Verif.Comp.AerodynamicsGaspBasedGaspaero4
import Verif.Comp.AerodynamicsGaspBasedInterference
import Verif.Comp.AerodynamicsGaspBasedTableBased
import Verif.Comp.AtmosphereFlightConditions
import Verif.Comp.EnergyBatterySizing
import Verif.Comp.GeometryFlopsBasedCharacteristicLengths
import Verif.Comp.GeometryFlopsBasedFuselage
import Verif.Comp.GeometryFlopsBasedPrepGeom
import Verif.Comp.GeometryFlopsBasedWettedAreaTotal
import Verif.Comp.GeometryFlopsBasedWing
import Verif.Comp.GeometryGaspBasedEmpennage1
import Verif.Comp.GeometryGaspBasedEmpennage2
import Verif.Comp.GeometryGaspBasedEngine
import Verif.Comp.GeometryGaspBasedFuselage1
import Verif.Comp.GeometryGaspBasedFuselage2
import Verif.Comp.GeometryGaspBasedNonDimensionalConversion
import Verif.Comp.GeometryGaspBasedStrut
import Verif.Comp.GeometryGaspBasedWing1
import Verif.Comp.GeometryGaspBasedWing2
import Verif.Comp.GeometryGaspBasedWing3
import Verif.Comp.MassFlopsBasedAirConditioning
import Verif.Comp.MassFlopsBasedApu
import Verif.Comp.MassFlopsBasedAvionics
import Verif.Comp.MassFlopsBasedCanard
import Verif.Comp.MassFlopsBasedCargoContainers
import Verif.Comp.MassFlopsBasedCrew
import Verif.Comp.MassFlopsBasedElectrical
import Verif.Comp.MassFlopsBasedEmptyMargin
import Verif.Comp.MassFlopsBasedEngineControls
import Verif.Comp.MassFlopsBasedEngineOil
import Verif.Comp.MassFlopsBasedFin
import Verif.Comp.MassFlopsBasedFuelCapacity
import Verif.Comp.MassFlopsBasedFuelSystem
import Verif.Comp.MassFlopsBasedFurnishings
import Verif.Comp.MassFlopsBasedFuselage
import Verif.Comp.MassFlopsBasedHorizontalTail
import Verif.Comp.MassFlopsBasedHydraulics
import Verif.Comp.MassFlopsBasedInstruments
import Verif.Comp.MassFlopsBasedLandingGear
import Verif.Comp.MassFlopsBasedLandingMass
import Verif.Comp.MassFlopsBasedNacelle
import Verif.Comp.MassFlopsBasedPaint
import Verif.Comp.MassFlopsBasedPassengerService
import Verif.Comp.MassFlopsBasedSurfaceControls
import Verif.Comp.MassFlopsBasedUnusableFuel
import Verif.Comp.MassFlopsBasedVerticalTail
import Verif.Comp.MassFlopsBasedWingCommon
import Verif.Comp.MassGaspBasedAirConditioning
import Verif.Comp.MassGaspBasedAntiIcing
import Verif.Comp.MassGaspBasedAvionics
import Verif.Comp.MassGaspBasedControl
import Verif.Comp.MassGaspBasedCrew
import Verif.Comp.MassGaspBasedDesignLoad
import Verif.Comp.MassGaspBasedElectrical
import Verif.Comp.MassGaspBasedEngine
import Verif.Comp.MassGaspBasedFixed1
import Verif.Comp.MassGaspBasedFixed2
import Verif.Comp.MassGaspBasedFixed3
import Verif.Comp.MassGaspBasedFixed4
import Verif.Comp.MassGaspBasedFixed5
import Verif.Comp.MassGaspBasedFixed6
import Verif.Comp.MassGaspBasedFuel1
import Verif.Comp.MassGaspBasedFuel2
import Verif.Comp.MassGaspBasedFuelCapacity
import Verif.Comp.MassGaspBasedHydraulics
import Verif.Comp.MassGaspBasedInstruments
import Verif.Comp.MassGaspBasedLanding
import Verif.Comp.MassGaspBasedOxygenSystem
import Verif.Comp.MassGaspBasedPassengerService
import Verif.Comp.MassGaspBasedWing
import Verif.Comp.MissionEnergyStateOdeLandingEom
import Verif.Comp.MissionEnergyStateOdeRangeRate
import Verif.Comp.MissionEnergyStateOdeRequiredThrust
import Verif.Comp.MissionEnergyStateOdeTakeoffEom
import Verif.Comp.MissionEnergyStatePhasesSimplifiedLanding
import Verif.Comp.MissionEnergyStatePhasesSimplifiedTakeoff
import Verif.Comp.MissionOdeAltitudeRate
import Verif.Comp.MissionOdeSpecificEnergyRate
import Verif.Comp.MissionSolvedTwoDofOdeGammaComp
import Verif.Comp.MissionSolvedTwoDofOdeGroundrollEom
import Verif.Comp.MissionSolvedTwoDofOdeUnsteadySolvedEom1
import Verif.Comp.MissionSolvedTwoDofOdeUnsteadySolvedEom2
import Verif.Comp.MissionSolvedTwoDofOdeUnsteadySolvedFlightConditions1
import Verif.Comp.MissionSolvedTwoDofOdeUnsteadySolvedFlightConditions2
import Verif.Comp.MissionTwoDofOdeAccelEom
import Verif.Comp.MissionTwoDofOdeConstraintsFlightConstraints
import Verif.Comp.MissionTwoDofOdeFlightEom
import Verif.Comp.MissionTwoDofOdeFlightPathEom1
import Verif.Comp.MissionTwoDofOdeFlightPathEom2
import Verif.Comp.MissionTwoDofOdeLandingEom1
import Verif.Comp.MissionTwoDofOdeLandingEom2
import Verif.Comp.MissionTwoDofOdeTakeoffEom1
import Verif.Comp.MissionTwoDofOdeTakeoffEom2
import Verif.Comp.MissionTwoDofOdeTakeoffEom3
import Verif.Comp.MissionTwoDofOdeTaxiEom
import Verif.Comp.MissionTwoDofOdeVRotateComp
import Verif.Comp.ModelsExternalSubsystemsDetailedBatteryModelBatteryPremission
import Verif.Comp.ModelsExternalSubsystemsDetailedBatteryModelCellComp
import Verif.Comp.ModelsExternalSubsystemsSimpleAeroSimpleDrag
import Verif.Comp.PerformancePerformancePremission
import Verif.Comp.PropulsionEngineSizing
import Verif.Comp.PropulsionPropellerHamiltonStandard
import Verif.Comp.PropulsionPropellerPropellerPerformance
import Verif.Data.Cold
import Verif.Data.DeclTable
import Verif.Data.Hot
import Verif.Data.MarsEquatorCold
import Verif.Data.MarsEquatorHot
import Verif.Data.MarsHellasCold
import Verif.Data.MarsHellasHot
import Verif.Data.MarsPolarCold
import Verif.Data.MarsPolarHot
import Verif.Data.MarsReference
import Verif.Data.MetaTable
import Verif.Data.Polar
import Verif.Data.Propeller
import Verif.Data.Standard
import Verif.Data.Tropical
import Verif.Data.Venus
import Verif.Lemmas.AtmTables
import Verif.Lemmas.CompDeriv
import Verif.Lemmas.Curve
import Verif.Lemmas.Deriv
import Verif.Lemmas.Dict
import Verif.Lemmas.SigRound
import Verif.Lemmas.VecDeriv
import Verif.Model.AeroGrid
import Verif.Model.AeroTables
import Verif.Model.AtmTables
import Verif.Model.Atmosphere
import Verif.Model.AviaryValues
import Verif.Model.BodyTank
import Verif.Model.Builders
import Verif.Model.BuriedNacelle
import Verif.Model.BwbCabin
import Verif.Model.BwbVolume
import Verif.Model.BwbWing
import Verif.Model.BwbWingMass
import Verif.Model.CabinLayout
import Verif.Model.CabinRows
import Verif.Model.CommandLine
import Verif.Model.CompressDrag
import Verif.Model.Configurators
import Verif.Model.ControlIter
import Verif.Model.ConvertedFile
import Verif.Model.CrewPayload
import Verif.Model.Cruise
import Verif.Model.CsvFile
import Verif.Model.DeckOptions
import Verif.Model.DeckRead
import Verif.Model.DeckWiring
import Verif.Model.Declare
import Verif.Model.Dict
import Verif.Model.DocTape
import Verif.Model.EngineDeck
import Verif.Model.EngineOptions
import Verif.Model.EngineParts
import Verif.Model.EngineTypes
import Verif.Model.Flaps
import Verif.Model.FlightIdle
import Verif.Model.FlightPhase
import Verif.Model.FortranDeck
import Verif.Model.FortranOptions
import Verif.Model.FortranStore
import Verif.Model.GaspCabin
import Verif.Model.GaspDrag
import Verif.Model.GaspEngines
import Verif.Model.GaspIdle
import Verif.Model.GaspLoads
import Verif.Model.GaspMaps
import Verif.Model.Geopotential
import Verif.Model.GroupDefaults
import Verif.Model.Guesses
import Verif.Model.HamiltonNode
import Verif.Model.HamiltonStandard
import Verif.Model.Hierarchy
import Verif.Model.InducedDrag
import Verif.Model.InfoText
import Verif.Model.InitialGuess
import Verif.Model.InputDeck
import Verif.Model.Interpolator
import Verif.Model.LandingPhases
import Verif.Model.LiftDrag
import Verif.Model.LinkPhases
import Verif.Model.LowSpeedTraj
import Verif.Model.MassSummation
import Verif.Model.MetaData
import Verif.Model.MissionEditor
import Verif.Model.MissionParams
import Verif.Model.MissionWiring
import Verif.Model.NacelleIndex
import Verif.Model.NamedValues
import Verif.Model.Objective
import Verif.Model.OdeAssembly
import Verif.Model.OdeOptions
import Verif.Model.OptionsDict
import Verif.Model.Paths
import Verif.Model.PhaseInfo
import Verif.Model.Phases
import Verif.Model.PolyFit
import Verif.Model.PostTies
import Verif.Model.PreHamilton
import Verif.Model.PreprocessOptions
import Verif.Model.ProblemSteps
import Verif.Model.PropMap
import Verif.Model.PropMission
import Verif.Model.Propulsion
import Verif.Model.PyVal
import Verif.Model.Ramps
import Verif.Model.Reports
import Verif.Model.RoundIt
import Verif.Model.SaveResults
import Verif.Model.SkinFriction
import Verif.Model.SmallComponents
import Verif.Model.SmallMass
import Verif.Model.SmoothMath
import Verif.Model.SolvedPhases
import Verif.Model.ThrottleLocal
import Verif.Model.Turboprop
import Verif.Model.TwoDofPhases
import Verif.Model.UFac
import Verif.Model.UnitDims
import Verif.Model.VarFunctions
import Verif.Model.WettedArea
import Verif.Model.WingBending
import Verif.Model.WingSimple
import Verif.Props.AeroGrid
import Verif.Props.AeroTables
import Verif.Props.AtmTables
import Verif.Props.Atmosphere
import Verif.Props.AtmosphereValues
import Verif.Props.AviaryValues
import Verif.Props.BodyTank
import Verif.Props.Builders
import Verif.Props.BuriedNacelle
import Verif.Props.BwbCabin
import Verif.Props.BwbVolume
import Verif.Props.BwbWing
import Verif.Props.BwbWingMass
import Verif.Props.CabinLayout
import Verif.Props.CabinRows
import Verif.Props.CommandLine
import Verif.Props.ComponentExamples
import Verif.Props.ComponentFindings
import Verif.Props.CompressDrag
import Verif.Props.Configurators
import Verif.Props.ControlIter
import Verif.Props.ConvertedFile
import Verif.Props.CrewPayload
import Verif.Props.Cruise
import Verif.Props.CsvFile
import Verif.Props.DeckOptions
import Verif.Props.DeckRead
import Verif.Props.DeckWiring
import Verif.Props.Declare
import Verif.Props.DocTape
import Verif.Props.EngineDeck
import Verif.Props.EngineDeckPack
import Verif.Props.EngineOptions
import Verif.Props.EngineParts
import Verif.Props.EngineTypes
import Verif.Props.Flaps
import Verif.Props.FlightConditions
import Verif.Props.FlightIdle
import Verif.Props.FlightPhase
import Verif.Props.FortranDeck
import Verif.Props.FortranOptions
import Verif.Props.FortranStore
import Verif.Props.GaspCabin
import Verif.Props.GaspDrag
import Verif.Props.GaspEngines
import Verif.Props.GaspGear
import Verif.Props.GaspIdle
import Verif.Props.GaspLoadFactors
import Verif.Props.GaspLoads
import Verif.Props.GaspMaps
import Verif.Props.Geopotential
import Verif.Props.GlideEntries
import Verif.Props.GroundEntries
import Verif.Props.GroupDefaults
import Verif.Props.Guesses
import Verif.Props.HamiltonNode
import Verif.Props.HamiltonSlope
import Verif.Props.HamiltonStandard
import Verif.Props.Hierarchy
import Verif.Props.InducedDrag
import Verif.Props.InfoText
import Verif.Props.InitialGuess
import Verif.Props.InputDeck
import Verif.Props.Interpolator
import Verif.Props.LandingEom
import Verif.Props.LandingPhases
import Verif.Props.LiftDrag
import Verif.Props.LinkPhases
import Verif.Props.LowSpeedTraj
import Verif.Props.MassSummation
import Verif.Props.MetaData
import Verif.Props.MetaTable
import Verif.Props.MissionEditor
import Verif.Props.MissionFile
import Verif.Props.MissionFindings
import Verif.Props.MissionParams
import Verif.Props.MissionPhysics
import Verif.Props.MissionWiring
import Verif.Props.NacelleIndex
import Verif.Props.NamedValues
import Verif.Props.Objective
import Verif.Props.OdeAssembly
import Verif.Props.OdeOptions
import Verif.Props.OpenEntries
import Verif.Props.OptionsDict
import Verif.Props.Paths
import Verif.Props.PhaseInfo
import Verif.Props.Phases
import Verif.Props.PolyFit
import Verif.Props.PostTies
import Verif.Props.PreHamilton
import Verif.Props.PreprocessOptions
import Verif.Props.ProblemSteps
import Verif.Props.PropMap
import Verif.Props.PropMission
import Verif.Props.Propulsion
import Verif.Props.Ramps
import Verif.Props.Reports
import Verif.Props.RoundIt
import Verif.Props.SaveResults
import Verif.Props.ServiceEntries
import Verif.Props.SkinFriction
import Verif.Props.SmallComponents
import Verif.Props.SmallMass
import Verif.Props.SmoothMath
import Verif.Props.SolvedPhases
import Verif.Props.ThrottleLocal
import Verif.Props.Turboprop
import Verif.Props.TwoDofPhases
import Verif.Props.UFac
import Verif.Props.VarFunctions
import Verif.Props.WettedArea
import Verif.Props.WingBending
import Verif.Props.WingEntries
import Verif.Props.WingGeometry
import Verif.Props.WingRelief
import Verif.Props.WingSimple
