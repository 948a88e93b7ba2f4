import Verif.Model.Run
import Verif.Spec.Export
import Verif.Props.ExportLogic

/-! # Specification: heaters that cannot be told apart by running them -/

namespace HPWH.Spec

variable {n k : ℕ}

/-- Heat sources that are described by different numbers but mean the same: the same kind with the same ratings, the
same links and rank, logics that decide the same, heat that goes to the same nodes. The limits of the air temperature,
the share of the airflow, the ports and the spread of the heat are used by heat pumps only. -/
structure SameSource (a b : SourceCfg n k) : Prop where
  kind : b.kind = a.kind
  priority : b.isVIP = a.isVIP
  backup : b.backup = a.backup
  companion : b.companion = a.companion
  followedBy : b.followedBy = a.followedBy
  shares : SameHeatShares b.heatDist a.heatDist
  average : ∀ T : Nodes n ℚ, b.heatDist.averageT T = a.heatDist.averageT T
  turnOn : List.Forall₂ SameLogic b.turnOn a.turnOn
  shutOff : List.Forall₂ SameLogic b.shutOff a.shutOff
  standby : Option.Rel SameLogic b.standby a.standby
  cools : b.depressesTemperature = a.depressesTemperature
  heatPump : (∃ c, a.kind = .condenser c) → b.minT = a.minT ∧ b.maxT = a.maxT ∧
    b.airflowFreedom = a.airflowFreedom ∧ b.externalInlet = a.externalInlet ∧
    b.externalOutlet = a.externalOutlet ∧ b.shrinkageT = a.shrinkageT ∧ b.lowestNode = a.lowestNode

/-- The same heat sources and the same settings for runs; only the setpoint of a heater that changes it on its own may
be fixed in one and free in the other. -/
structure SameSettings (a b : SimCfg n k) : Prop where
  src : ∀ i, SameSource (a.src i) (b.src i)
  minutes : b.minutesPerStep = a.minutesPerStep
  depression : b.doTempDepression = a.doTempDepression
  maxDepression : b.maxDepression = a.maxDepression
  timer : b.timerLimitTOT = a.timerLimitTOT
  heatPump : b.compressorIndex = a.compressorIndex
  element : b.lowestElementIndex = a.lowestElementIndex
  priority : b.vipIndex = a.vipIndex
  setpoint : (∃ i c, (a.src i).kind = .condenser c) →
    b.setpointFixed = a.setpointFixed ∧ b.isStorageTank = a.isStorageTank

/-- Tanks of the same size and losses, with the same inlets, mixing and heat exchanger. What is not in use may
differ: the height of the mixing in a tank that does not mix, and the effectiveness of an absent heat exchanger. -/
structure SameShell (a b : TankCfg) : Prop where
  rest : b = { a with
    mixBelowFractionOnDraw := b.mixBelowFractionOnDraw
    heatExchangerEffectiveness := b.heatExchangerEffectiveness
    nodeHeatExchangerEffectiveness := b.nodeHeatExchangerEffectiveness
    volumeFixed := b.volumeFixed }
  mixing : a.mixesOnDraw = true → b.mixBelowFractionOnDraw = a.mixBelowFractionOnDraw
  exchanger : a.hasHeatExchanger = true → b.nodeHeatExchangerEffectiveness = a.nodeHeatExchangerEffectiveness

/-- The two heaters agree on the settings that are not part of a description: the inlets, the mixing of inversions and
the conduction between nodes, the length of a step, the limits of the depression and of the timer. -/
structure SameUnwritten {k₀ : ℕ} (a : Sim n k) (b : Sim n k₀) : Prop where
  inlet : b.tank.inletHeight = a.tank.inletHeight
  inlet2 : b.tank.inlet2Height = a.tank.inlet2Height
  inversion : b.tank.doInversionMixing = a.tank.doInversionMixing
  conduction : b.tank.doConduction = a.tank.doConduction
  minutes : b.cfg.minutesPerStep = a.cfg.minutesPerStep
  maxDepression : b.cfg.maxDepression = a.cfg.maxDepression
  timerLimit : b.cfg.timerLimitTOT = a.cfg.timerLimitTOT

/-- What a heater remembers from one step to the next. -/
structure SameMemory (a b : Sim n k) : Prop where
  nodes : b.tank.nodeTs = a.tank.nodeTs
  setpoint : b.setpoint = a.setpoint
  inletT : b.inletT = a.inletT
  haveInletT : b.haveInletT = a.haveInletT
  socControl : b.socControl = a.socControl
  soc : b.soc = a.soc
  on : ∀ i, (b.st i).isOn = (a.st i).isOn
  locked : ∀ i, (b.st i).lockedOut = (a.st i).lockedOut
  heating : b.isHeating = a.isHeating
  location : b.locationT = a.locationT
  timer : b.timerTOT = a.timerTOT

/-- A heater that has not run yet: the tank at the setpoint, every heat source off and not locked out. The rest of what
it remembers is as in the other heater. -/
structure NotYetRun {k₀ : ℕ} (a : Sim n k) (b : Sim n k₀) : Prop where
  nodes : ∀ j, a.tank.nodeTs j = a.setpoint
  off : ∀ i, (a.st i).isOn = false
  unlocked : ∀ i, (a.st i).lockedOut = false
  heating : a.isHeating = false
  inletT : b.inletT = a.inletT
  haveInletT : b.haveInletT = a.haveInletT
  socControl : b.socControl = a.socControl
  soc : b.soc = a.soc
  location : b.locationT = a.locationT
  timer : b.timerTOT = a.timerTOT

/-- What a step reports: outlet temperature, losses, energy taken from the surroundings, extra heat, water temperatures
and volume at the heat pump, and run time and energies of each heat source. -/
structure SameOutputs (a b : Sim n k) : Prop where
  outlet : b.tank.outletT = a.tank.outletT
  losses_kJ : b.tank.standbyLosses_kJ = a.tank.standbyLosses_kJ
  losses : b.standbyLosses_kWh = a.standbyLosses_kWh
  removed : b.energyRemoved_kWh = a.energyRemoved_kWh
  extra : b.extraEnergyInput_kWh = a.extraEnergyInput_kWh
  inlet : b.condenserInlet = a.condenserInlet
  outflow : b.condenserOutlet = a.condenserOutlet
  volume : b.externalVolumeHeated = a.externalVolumeHeated
  source : ∀ i, (b.st i).runtime_min = (a.st i).runtime_min ∧ (b.st i).energyInput_kWh = (a.st i).energyInput_kWh ∧
    (b.st i).energyOutput_kWh = (a.st i).energyOutput_kWh

/-- Heaters that may be swapped for one another: the same settings and the same memory. -/
structure Alike (a b : Sim n k) : Prop where
  settings : SameSettings a.cfg b.cfg
  shell : SameShell a.tank.toTankCfg b.tank.toTankCfg
  memory : SameMemory a b

/-- Both calls end with the same error, or both succeed with results that are related. -/
inductive SameResult {α β : Type} (R : α → β → Prop) : Res α → Res β → Prop
  | ok {a b} (h : R a b) : SameResult R (.ok a) (.ok b)
  | error {e} : SameResult R (.error e) (.error e)

end HPWH.Spec
