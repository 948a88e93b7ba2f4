import Verif.Model.Settings
import Verif.Model.Grid

/-! # The data model a simulator is exported to and imported from

The types of `hpwh_data_model` (generated code, not in /repo) as far as the simulator reads or writes them.
A field `x` with its flag `x_is_set` is an `Option`: writing JSON omits a field that is not set and reading
JSON sets a field that is there. The JSON text itself is not modelled. A field that the code reads without
looking at the flag has, when absent, the value a default-constructed object has (0, false, empty). -/

namespace HPWH

/-! ## Descriptions -/

/-- `Description` and `ProductInformation`, src/HPWH.hh:163-242. -/
structure Info where
  description : Option String
  manufacturer : Option String
  modelNumber : Option String
  deriving DecidableEq

/-- `metadata.description` (outer option: is there metadata) and `description.product_information`, as read
and written by src/HPWH.hh:163-242. -/
structure RsInfo where
  metadata : Option (Option String)
  product : Option (Option String × Option String)
  deriving DecidableEq

/-- `Rating10CFR430`, src/HPWH.hh:244-268, and `rating_10_cfr_430` of the data model, which has the same
fields. -/
structure Rating where
  certifiedReferenceNumber : Option String
  nominalTankVolume : Option ℚ
  firstHourRating : Option ℚ
  recoveryEfficiency : Option ℚ
  uniformEnergyFactor : Option ℚ
  deriving DecidableEq

/-! ## Tank, logics, heat sources -/

/-- `RSTANK` with its `performance`, as used in src/Tank.cc:33-87. -/
structure RsTank where
  info : RsInfo
  volume : Option ℚ
  ua : Option ℚ
  fittingsUA : Option ℚ
  mixingFraction : Option ℚ
  exchangerEffectiveness : Option ℚ
  deriving DecidableEq

/-- `WeightedDistribution` of the data model, src/HPWHHeatSource.cc:142-152. -/
structure RsDist where
  heights : Option (List ℚ)
  weights : Option (List ℚ)
  deriving DecidableEq

/-- `ComparisonType`, src/HPWHHeatingLogic.cc:304-323. -/
inductive RsComparison
  | greater
  | less
  | unknown
  deriving DecidableEq

/-- `StandbyTemperatureLocation`, src/HPWHHeatingLogic.cc:362-385. -/
inductive RsLocation
  | top
  | bottom
  | unknown
  deriving DecidableEq

/-- `TemperatureBasedHeatingLogic`, src/HPWHHeatingLogic.cc:340-408. -/
structure RsTempLogic where
  absolute : Option ℚ
  differential : Option ℚ
  location : Option RsLocation
  dist : Option RsDist
  checksStandby : Option Bool
  deriving DecidableEq

/-- `StateOfChargeBasedHeatingLogic`, src/HPWHHeatingLogic.cc:328-337,422-433. -/
structure RsSoCLogic where
  decisionPoint : Option ℚ
  minimumUseful : Option ℚ
  hysteresis : Option ℚ
  usesConstantMains : Option Bool
  constantMains : Option ℚ
  deriving DecidableEq

/-- `HeatingLogic` of the data model: its type and its content. -/
inductive RsLogicBody
  | temperature (x : RsTempLogic)
  | stateOfCharge (x : RsSoCLogic)
  deriving DecidableEq

structure RsLogic where
  comparison : Option RsComparison
  body : RsLogicBody
  deriving DecidableEq

/-- `CoilConfiguration`, src/Condenser.cc:233-249. -/
inductive RsCoil
  | submerged
  | wrapped
  | unknown
  deriving DecidableEq

/-- `performance_map`, src/Condenser.cc:262-307, 339-394. Condensers have no leaving-water axis. -/
structure RsMap where
  env : Option (List ℚ)
  water : Option (List ℚ)
  leaving : Option (List ℚ)
  inputPower : List ℚ
  heatingCapacity : List ℚ
  deriving DecidableEq

/-- `RSCONDENSERWATERHEATSOURCE`, src/Condenser.cc:225-318. -/
structure RsCondenser where
  info : RsInfo
  coil : RsCoil
  maxRefrigerantT : Option ℚ
  hysteresis : Option ℚ
  map : Option RsMap
  useDefrost : Option Bool
  standbyPower : Option ℚ
  deriving DecidableEq

/-- `resistance_element_defrost`, src/Condenser.cc:407-413. -/
structure RsResDefrost where
  inputPower : ℚ
  lift : ℚ
  activation : ℚ
  deriving DecidableEq

/-- `maximum_setpoint_at_low_temperature`, src/Condenser.cc:415-420. -/
structure RsLowLimit where
  maxSetpoint : ℚ
  threshold : ℚ
  deriving DecidableEq

/-- `RSAIRTOWATERHEATPUMP`, src/Condenser.cc:320-421. -/
structure RsHeatPump where
  info : RsInfo
  maxRefrigerantT : Option ℚ
  hysteresis : Option ℚ
  map : Option RsMap
  useDefrost : Option Bool
  standbyPower : Option ℚ
  resDefrost : Option RsResDefrost
  lowLimit : Option RsLowLimit
  deriving DecidableEq

/-- `heat_source_type` and `heat_source`, src/HPWH.cc:3258-3285. -/
inductive RsSource
  | condenser (x : RsCondenser)
  | heatPump (x : RsHeatPump)
  | resistance (info : RsInfo) (inputPower : ℚ)
  | unknown
  deriving DecidableEq

/-- `HeatSourceConfiguration`, src/HPWHHeatSource.cc:91-230. An absent list of logics and an empty one are
read alike. -/
structure RsConfig where
  id : Option String
  heatDist : Option RsDist
  turnOn : List RsLogic
  shutOff : List RsLogic
  standby : Option RsLogic
  backup : Option String
  followedBy : Option String
  companion : Option String
  source : RsSource
  deriving DecidableEq

/-- A default-constructed `HeatSourceConfiguration`, as `configurations.resize` makes them, src/HPWH.cc:3487. -/
def RsConfig.blank : RsConfig :=
  { id := none, heatDist := none, turnOn := [], shutOff := [], standby := none, backup := none,
    followedBy := none, companion := none, source := .unknown }

/-- `RSINTEGRATEDWATERHEATER`, src/HPWH.cc:3232-3315. -/
structure RsIntegrated (k : ℕ) where
  info : RsInfo
  rating : Option Rating
  tank : RsTank
  configs : Fin k → RsConfig
  primary : Option String
  deriving DecidableEq

/-- `secondary_heat_exchanger`, src/HPWH.cc:3361-3367. -/
structure RsExchanger where
  coldOffset : ℚ
  hotOffset : ℚ
  extraPumpPower : ℚ
  deriving DecidableEq

/-- `CentralWaterHeatingSystem`, src/HPWH.cc:3317-3425. `control_type` is written but never read. -/
structure RsCentral (k : ℕ) where
  tank : RsTank
  configs : Fin k → RsConfig
  primary : Option String
  inletHeight : Option ℚ
  outletHeight : Option ℚ
  multipass : Option Bool
  fixedFlowRate : Option ℚ
  exchanger : Option RsExchanger
  deriving DecidableEq

/-- `system_type` with `integrated_system` or `central_system`, src/HPWH.cc:3188-3227. -/
inductive RsSystem (k : ℕ)
  | integrated (x : RsIntegrated k)
  | central (x : RsCentral k)
  deriving DecidableEq

/-- `HPWHSimInput`, src/HPWH.cc:3170-3230. Descriptions without a system, which leave the heat sources as
they were, are not modelled. -/
structure SimInput (k : ℕ) where
  depressesTemperature : Option Bool
  numberOfNodes : Option ℕ
  fixedVolume : Option Bool
  standardSetpoint : Option ℚ
  interpolateCop : Option Bool
  system : RsSystem k
  deriving DecidableEq

/-! ## The simulator with the things only the description needs -/

/-- Which of the three sets of interpolation methods `setUpGridAxes` uses, src/Condenser.cc:1293-1312; it
follows from the model number. -/
inductive GridStyle
  | mitsubishi
  | nyleMP
  | other
  deriving DecidableEq

/-- A simulator with names and texts, and the performance grid (`perfRGI`) of each condenser that has one. -/
structure Machine (n k : ℕ) where
  sim : Sim n k
  name : Fin k → String
  srcInfo : Fin k → Info
  grid : Fin k → Option (PerfGrid ℚ)
  tankInfo : Info
  info : Info
  rating : Rating
  useCOP : Bool
  style : GridStyle

end HPWH
