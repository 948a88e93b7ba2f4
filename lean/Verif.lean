import Verif.Props.Mix
import Verif.Props.TankUpdate
import Verif.Props.AddHeat
import Verif.Props.Profile
import Verif.Props.HeatSource
import Verif.Props.External
import Verif.Props.SinglePass
import Verif.Model.Run
import Verif.Props.Control
import Verif.Props.Step
import Verif.Props.Demand
import Verif.Props.TopOff
import Verif.Props.Room
import Verif.Props.Run
import Verif.Props.Rated
import Verif.Props.Setpoint
import Verif.Props.Ports
import Verif.Props.Units
import Verif.Props.SoC
import Verif.Props.Capacity
import Verif.Props.Elements
import Verif.Props.MixExact
import Verif.Props.Transport
import Verif.Model.Logics
import Verif.Props.Logics
import Verif.Props.Accept
import Verif.Model.Grid
import Verif.Props.Grid
import Verif.Model.Rating
import Verif.Spec.Rating
import Verif.Props.Rating
import Verif.Props.DayTest
import Verif.Props.DayExample
import Verif.Model.Poly
import Verif.Spec.Passes
import Verif.Spec.Poly
import Verif.Lemmas.Passes
import Verif.Props.Passes
import Verif.Props.Poly
import Verif.Model.Fit
import Verif.Props.Fit
import Verif.Props.Generic
import Verif.Model.Copy
import Verif.Props.Copy
import Verif.Model.Schema
import Verif.Model.Export
import Verif.Model.Import
import Verif.Spec.Export
import Verif.Lemmas.Rescale
import Verif.Lemmas.Export
import Verif.Props.ExportTank
import Verif.Props.ExportLogic
import Verif.Lemmas.Import
import Verif.Lemmas.ExportCondenser
import Verif.Props.ExportSources
import Verif.Props.ExportCondenser
import Verif.Props.ExportTwice
import Verif.Spec.FirstHour
import Verif.Props.Standby
import Verif.Props.FirstHour
import Verif.Model.Report
import Verif.Spec.Report
import Verif.Props.Report
import Verif.Model.Cli
import Verif.Spec.Cli
import Verif.Props.Cli
import Verif.Props.CliExample
import Verif.Model.Init
import Verif.Spec.Init
import Verif.Props.Init
import Verif.Spec.Alone
import Verif.Props.Alone
import Verif.Spec.Between
import Verif.Props.Between
import Verif.Props.PolyPositive
import Verif.Spec.Works
import Verif.Spec.Alike
import Verif.Props.Works
import Verif.Props.GenericPump
import Verif.Model.Preset
import Verif.Model.PresetTable
import Verif.Model.PresetNames
import Verif.Spec.Presets
import Verif.Props.Presets
import Verif.Props.RegPositive
import Verif.Props.PresetRuns
import Verif.Props.Alike
import Verif.Props.Reread
import Verif.Spec.TestSetup
import Verif.Props.TestSetup
import Verif.Model.Commands
import Verif.Spec.Commands
import Verif.Props.Commands
import Verif.Spec.Loading
import Verif.Props.Loading
import Verif.Spec.Reasons
import Verif.Props.Reasons
import Verif.Spec.Recovery
import Verif.Props.Recovery
import Verif.Model.Make
import Verif.Spec.Make
import Verif.Props.Make
import Verif.Props.MakeExample
import Verif.Props.MakeThree
import Verif.Spec.Cooling
import Verif.Props.Cooling
import Verif.Spec.Compare
import Verif.Props.Compare
import Verif.Model.Averages
import Verif.Spec.Averages
import Verif.Props.Averages
import Verif.Spec.Memory
import Verif.Props.Memory
import Verif.Props.Fuel
import Verif.Spec.Progress
import Verif.Props.Progress
import Verif.Props.PresetProgress
import Verif.Spec.Stops
import Verif.Props.Stops
import Verif.Model.Replace
import Verif.Spec.Replace
import Verif.Props.Replace
import Verif.Props.FuelTests
import Verif.Spec.Scale
import Verif.Lemmas.ScaleTank
import Verif.Lemmas.ScaleSource
import Verif.Lemmas.ScaleSim
import Verif.Props.Scale
import Verif.Props.Charge
import Verif.Props.PumpRecovery
import Verif.Spec.Inputs
import Verif.Props.Inputs
import Verif.Spec.BottomMixing
import Verif.Props.BottomMixing
import Verif.Spec.Backup
import Verif.Props.Backup
import Verif.Spec.Priority
import Verif.Props.Priority
import Verif.Spec.OneOn
import Verif.Props.OneOn
import Verif.Props.OneOnModels
