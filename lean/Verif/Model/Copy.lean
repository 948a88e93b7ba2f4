import Verif.Model.Sim

/-! # Copying simulators, tanks and heat sources

An `HPWH` object holds its tank and its heat sources by `std::shared_ptr`; tank, heat sources and heating
logics hold a plain pointer back to an `HPWH`. The model is a memory in which objects are numbered. -/

namespace HPWH

/-- What an `HPWH` object holds itself, src/HPWH.hh:1448-1560; `tank` and `sources` are the addresses its
shared pointers hold. Texts (name, product information) and the fields nothing in the model reads are
omitted. -/
structure UnitObj where
  tank : ℕ
  sources : List ℕ
  isHeating : Bool
  setpoint : ℚ
  condenserInlet : ℚ
  condenserOutlet : ℚ
  externalVolumeHeated : ℚ
  energyRemoved_kWh : ℚ
  standbyLosses_kWh : ℚ
  extraEnergyInput_kWh : ℚ
  doTempDepression : Bool
  locationT : ℚ
  timerLimitTOT : ℚ
  timerTOT : ℚ
  usesSoCLogic : Bool
  socControl : Option SoCParams
  soc : ℚ
  inletT : ℚ
  haveInletT : Bool
  setpointFixed : Bool
  canScale : Bool
  minutesPerStep : ℚ
  compressorIndex : ℤ
  lowestElementIndex : ℤ
  vipIndex : ℤ
  deriving DecidableEq

/-- A tank object with its pointer to an `HPWH`. -/
structure TankObj (n : ℕ) where
  owner : ℕ
  tank : Tank n

/-- A heat source object with its pointer to an `HPWH`, and the pointer its heating logics hold (they are
all made for the same `HPWH`). -/
structure SourceObj (n k : ℕ) where
  owner : ℕ
  logicOwner : ℕ
  cfg : SourceCfg n k
  st : SourceState

structure World (n k : ℕ) where
  unit : ℕ → UnitObj
  tank : ℕ → TankObj n
  source : ℕ → SourceObj n k

namespace World

variable {n k : ℕ}

/-- The loop `for (auto& heatSource : heatSources) heatSource->hpwh = this`, src/HPWH.cc:212-215. -/
def adopt (b : ℕ) (src : ℕ → SourceObj n k) : List ℕ → ℕ → SourceObj n k
  | [] => src
  | j :: js => adopt b (Function.update src j { src j with owner := b }) js

/-- `HPWH::operator=`, src/HPWH.cc:197-237: unit `b` is assigned unit `a`. Fields not named there keep the
values they had in `b`. -/
def assign (w : World n k) (b a : ℕ) : World n k :=
  if b = a then w
  else
    let x := w.unit a
    let y := w.unit b
    { unit := Function.update w.unit b
        { y with
          isHeating := x.isHeating, tank := x.tank, sources := x.sources, setpoint := x.setpoint,
          condenserInlet := x.condenserInlet, condenserOutlet := x.condenserOutlet,
          externalVolumeHeated := x.externalVolumeHeated, energyRemoved_kWh := x.energyRemoved_kWh,
          standbyLosses_kWh := x.standbyLosses_kWh, doTempDepression := x.doTempDepression,
          locationT := x.locationT, timerLimitTOT := x.timerLimitTOT, usesSoCLogic := x.usesSoCLogic }
      tank := Function.update w.tank x.tank { w.tank x.tank with owner := b }
      source := adopt b w.source x.sources }

/-- What a heating logic or heat source sees of the `HPWH` its pointer leads to. -/
def plant (w : World n k) (u : ℕ) : Plant n :=
  let x := w.unit u
  { tank := (w.tank x.tank).tank, setpoint := x.setpoint, inletT := x.inletT, haveInletT := x.haveInletT,
    socControl := x.socControl, soc := x.soc, condenserInlet := x.condenserInlet,
    condenserOutlet := x.condenserOutlet, externalVolumeHeated := x.externalVolumeHeated }

/-- `getTankNodeTemp`, src/HPWH.cc:1766-1780, of unit `u`. -/
def nodeT (w : World n k) (u : ℕ) (i : Fin (n + 1)) : ℚ := (w.tank (w.unit u).tank).tank.nodeTs i

/-- `HeatSource::shutsOff`, src/HPWHHeatSource.cc:311-333, with the pointers of source and logics. -/
def shutsOff (w : World n k) (j : ℕ) : Res Bool :=
  let o := w.source j
  if (w.plant o.owner).tank.nodeTs 0 ≥ (w.plant o.owner).setpoint then .ok true
  else anyHolds (w.plant o.logicOwner) o.cfg.shutOff

/-- Things that can happen to one unit: changes of what it holds itself (setters, outputs of a step), of its
tank's state, and of the state of its heat sources. None of these changes a pointer: only assignment does. -/
inductive Op (n : ℕ)
  | setSetpoint (x : ℚ)
  | setInletT (x : ℚ)
  | setLocationT (x : ℚ)
  | setHeating (x : Bool)
  | setStep (minutes : ℚ)
  | setTank (T : Tank n)
  | setSource (i : ℕ) (x : SourceState)

/-- The effect of an operation on unit `u`: src/HPWH.cc:145-150 (setMinutesPerStep), 822-850 (setSetpoint),
src/HPWH.hh:698-702 (setInletT), src/HPWH.cc:1033-1057 (tank temperatures); a step changes tank and heat sources through the same
pointers. -/
def apply (w : World n k) (u : ℕ) : Op n → World n k
  | .setSetpoint x => { w with unit := Function.update w.unit u { w.unit u with setpoint := x } }
  | .setInletT x => { w with unit := Function.update w.unit u { w.unit u with inletT := x, haveInletT := true } }
  | .setLocationT x => { w with unit := Function.update w.unit u { w.unit u with locationT := x } }
  | .setHeating x => { w with unit := Function.update w.unit u { w.unit u with isHeating := x } }
  | .setStep x => { w with unit := Function.update w.unit u { w.unit u with minutesPerStep := x } }
  | .setTank T =>
    { w with tank := Function.update w.tank (w.unit u).tank { w.tank (w.unit u).tank with tank := T } }
  | .setSource i x =>
    match (w.unit u).sources[i]? with
    | none => w
    | some j => { w with source := Function.update w.source j { w.source j with st := x } }

/-- A history of operations on any units. -/
def applyAll (w : World n k) (ops : List (ℕ × Op n)) : World n k :=
  ops.foldl (fun w o => w.apply o.1 o.2) w

end World

/-- `Tank::operator=`, src/Tank.cc:9-31: `t` is assigned `s`. -/
def Tank.assign {n : ℕ} (t s : Tank n) : Tank n :=
  { t with
    volume_L := s.volume_L, volumeFixed := s.volumeFixed, UA := s.UA, fittingsUA := s.fittingsUA,
    nodeTs := s.nodeTs, mixesOnDraw := s.mixesOnDraw, mixBelowFractionOnDraw := s.mixBelowFractionOnDraw,
    doInversionMixing := s.doInversionMixing, hasHeatExchanger := s.hasHeatExchanger }

/-- `HeatSource::operator=`, src/HPWHHeatSource.cc:41-88: the settings of `t` are assigned those of `s`; an
error if `s` is linked to another heat source. -/
def SourceCfg.assign {n k : ℕ} (t s : SourceCfg n k) : Res (SourceCfg n k) :=
  if s.backup.isSome ∨ s.companion.isSome ∨ s.followedBy.isSome then .error .error
  else .ok
    { t with
      isVIP := s.isVIP, backup := none, companion := none, followedBy := none, heatDist := s.heatDist,
      shrinkageT := s.shrinkageT, turnOn := s.turnOn, shutOff := s.shutOff, standby := s.standby,
      minT := s.minT, maxT := s.maxT, depressesTemperature := s.depressesTemperature,
      airflowFreedom := s.airflowFreedom, externalInlet := s.externalInlet,
      externalOutlet := s.externalOutlet, lowestNode := s.lowestNode }

/-- `Condenser::operator=`, src/Condenser.cc:34-66, the settings of a condenser itself. -/
def CondCfg.assign (t s : CondCfg) : CondCfg :=
  { t with
    evaluate := s.evaluate, defrostMap := s.defrostMap, resDefrostPower_kW := s.resDefrostPower_kW,
    resDefrostLift_dF := s.resDefrostLift_dF, resDefrostOnBelow_F := s.resDefrostOnBelow_F,
    configuration := s.configuration, isMultipass := s.isMultipass, mpFlowRate_LPS := s.mpFlowRate_LPS,
    coldSideOffset := s.coldSideOffset, hotSideOffset := s.hotSideOffset,
    extraPumpPower_W := s.extraPumpPower_W, hysteresis := s.hysteresis, maxSetpoint := s.maxSetpoint,
    inputPowerScale := s.inputPowerScale, copScale := s.copScale }

end HPWH
