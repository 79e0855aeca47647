import Verif.Props.Microtrips
import Verif.Props.Concat
import Verif.Props.Distance
import Verif.Props.Clip
import Verif.Props.Jerk
import Verif.Props.Engine
import Verif.Props.Braking
import Verif.Props.Battery
import Verif.Props.Speed
import Verif.Props.Loops
import Verif.Props.Timer
import Verif.Props.Accessory
import Verif.Props.Post
import Verif.Props.Audit
import Verif.Props.Dilation
import Verif.Props.Follow
import Verif.Props.Passing
import Verif.Props.Coast
import Verif.Props.Real
import Verif.Props.NextStop
import Verif.Props.GradeLookup
import Verif.Props.Resample
import Verif.Props.EcoCruise
import Verif.Props.CoastPlan
import Verif.Props.CoastReplan
import Verif.Props.CoastDelay
import Verif.Props.VehicleMass
import Verif.Props.VehicleEff
import Verif.Props.CopyCycle
import Verif.Props.CopyVehicle
import Verif.Props.Units
import Verif.Props.Tire
import Verif.Props.Log
import Verif.Props.Path
import Verif.Props.Frame
import Verif.Props.CalError
import Verif.Props.Label
import Verif.Props.LabelPhev
import Verif.Props.Coherent
import Verif.Props.FuelStore
import Verif.Props.FuelStoreCoast
import Verif.Props.Causal
import Verif.Props.SimCopy
import Verif.Props.Peaks
import Verif.Props.Gap
import Verif.Props.Later
import Verif.Lemmas.View
import Verif.Props.Ignored
import Verif.Model.Load
import Verif.Lemmas.Load
import Verif.Props.Load
import Verif.Props.LoadDemo
import Verif.Props.Latch
import Verif.Props.Motor
import Verif.Props.Hybrid
import Verif.Props.Steering
import Verif.Model.CoastDown
import Verif.Props.CoastDown
import Verif.Props.Resume
import Verif.Props.Standing
import Verif.Props.Harder
import Verif.Model.Calib
import Verif.Props.Calib
import Verif.Model.Preproc
import Verif.Props.Preproc
import Verif.Model.VehDb
import Verif.Props.VehDb
import Verif.Props.FuelSide
import Verif.Props.Report
import Verif.Props.SimEq
import Verif.Props.LabelSim
import Verif.Props.Names
import Verif.Props.FirstLaw
import Verif.Props.BevTrip
import Verif.Props.FuelTrace
import Verif.Model.Files
import Verif.Lemmas.Files
import Verif.Props.Files
import Verif.Model.Demos
import Verif.Props.Demos
import Verif.Model.Objects
import Verif.Lemmas.Objects
import Verif.Props.Objects
import Verif.Model.RsStep
import Verif.Lemmas.RsStep
import Verif.Props.RustStep
import Verif.Model.RsVeh
import Verif.Lemmas.RsVeh
import Verif.Props.RustVeh
import Verif.Model.RsRun
import Verif.Props.RustRun
import Verif.Model.RsCycle
import Verif.Props.RustCycle
import Verif.Model.RsIdm
import Verif.Props.RustIdm
import Verif.Model.RsCoast
import Verif.Props.RustCoast
import Verif.Props.RustCoastCases
import Verif.Model.RsLabel
import Verif.Props.RustLabel
import Verif.Props.RustLabelSim
import Verif.Model.RsThermal
import Verif.Props.RustThermal
import Verif.Props.RustThermalFuel
import Verif.Props.RustThermalRuns
import Verif.Props.RustAir
import Verif.Props.RoadGrade
import Verif.Props.RoadHeight
import Verif.Props.RustHeat
import Verif.Props.RustHeatSteps
import Verif.Props.RustCabin
import Verif.Props.RustExhaust
import Verif.Props.RustHeatDemo
import Verif.Model.RsImport
import Verif.Props.RustImportText
import Verif.Props.RustImport
import Verif.Props.RustImportVeh
import Verif.Props.RustImportRun
import Verif.Model.RsCli
import Verif.Props.RustCli
import Verif.Props.RustCliJson
import Verif.Props.RustCliMain
import Verif.Props.RustCliDemo
import Verif.Model.RsGrid
import Verif.Props.RustGrid
import Verif.Model.RsTire
import Verif.Props.RustTire
import Verif.Model.RsBatch
import Verif.Props.RustBatch
import Verif.Props.RustBatchDemo
import Verif.Props.RustDilation
import Verif.Model.RsTable
import Verif.Props.RustTable
import Verif.Model.RsCoastDown
import Verif.Props.RustCoastDown
import Verif.Props.RustAirTables
import Verif.Model.RsApprox
import Verif.Props.RustApprox
import Verif.Model.RsSaved
import Verif.Props.RustSaved
import Verif.Model.RsFile
import Verif.Props.RustFile
import Verif.Props.BevTrace
import Verif.Props.MassWork
import Verif.Props.Steady
import Verif.Props.BevMass
import Verif.Props.Within
import Verif.Props.BevWithin
import Verif.Props.PlugIn
import Verif.Model.RsWeb
import Verif.Props.RsWeb
import Verif.Props.RsTables
import Verif.Props.RsTablesMore
import Verif.Props.RsRepo
import Verif.Model.RsObj
import Verif.Props.RsObj
import Verif.Props.RsPath
import Verif.Model.RsHistory
import Verif.Props.RsHistory
import Verif.Props.Sampling
import Verif.Props.SafeGap
import Verif.Props.Robust
import Verif.Model.RsImportCli
import Verif.Props.RsImportCli
import Verif.Props.Scale
import Verif.Props.Better
import Verif.Model.RsLog
import Verif.Props.RsLog
import Verif.Model.RsBuild
import Verif.Props.RsBuild
import Verif.Props.LabelTrace
import Verif.Props.LabelBev
import Verif.Props.RustCooling
import Verif.Props.RustLabelTrace
import Verif.Props.RustCabinDrive
import Verif.Props.Hills
import Verif.Props.RustExhaustDrive
import Verif.Model.RsFuel
import Verif.Props.RustFuel
import Verif.Props.RustHeatDrive
import Verif.Props.RustExhaustGas
import Verif.Props.RustCache
import Verif.Props.Native
