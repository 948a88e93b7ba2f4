import Verif.Model.Run

/-! # Specification: heaters that differ in size only

`x.scale a` is `x` made `a` times as large: `a` times as much water, loss, power, flow and energy, in a tank of the
same height with the same number of nodes. Temperatures, times and ratios stay. For a whole number `a` this is a bank
of `a` equal heaters in parallel described as one. -/

namespace HPWH

variable {n k : ℕ}

/-- A tank of `a` times the cross-section: volume, heat capacity and losses are `a` times as large. -/
def Tank.scale (a : ℚ) (t : Tank n) : Tank n :=
  { t with
    volume_L := a * t.volume_L
    nodeVolume_L := a * t.nodeVolume_L
    nodeCp := a * t.nodeCp
    UA := a * t.UA
    fittingsUA := a * t.fittingsUA
    standbyLosses_kJ := a * t.standbyLosses_kJ }

/-- `a` times the powers at the same coefficient of performance. -/
def Perf.scale (a : ℚ) (p : Perf) : Perf :=
  { p with inputPower_W := a * p.inputPower_W, outputPower_W := a * p.outputPower_W }

/-- A heat pump of `a` times the power and flow. -/
def CondCfg.scale (a : ℚ) (c : CondCfg) : CondCfg :=
  { c with
    mpFlowRate_LPS := a * c.mpFlowRate_LPS
    resDefrostPower_kW := a * c.resDefrostPower_kW
    extraPumpPower_W := a * c.extraPumpPower_W
    standbyPower_kW := a * c.standbyPower_kW
    evaluate := fun setpoint air water => (c.evaluate setpoint air water).scale a }

/-- A heat source of `a` times the power. -/
def SourceKind.scale (a : ℚ) : SourceKind → SourceKind
  | .resistance power_kW => .resistance (a * power_kW)
  | .condenser c => .condenser (c.scale a)

/-- A heat source of `a` times the power, controlled in the same way. -/
def SourceCfg.scale (a : ℚ) (s : SourceCfg n k) : SourceCfg n k := { s with kind := s.kind.scale a }

/-- The same times, `a` times the energies. -/
def SourceState.scale (a : ℚ) (s : SourceState) : SourceState :=
  { s with energyInput_kWh := a * s.energyInput_kWh, energyOutput_kWh := a * s.energyOutput_kWh }

/-- A larger tank at the same temperatures; `a` times the volume heated. -/
def Plant.scale (a : ℚ) (p : Plant n) : Plant n :=
  { p with tank := p.tank.scale a, externalVolumeHeated := a * p.externalVolumeHeated }

/-- Larger heat sources, all other settings the same. -/
def SimCfg.scale (a : ℚ) (c : SimCfg n k) : SimCfg n k := { c with src := fun i => (c.src i).scale a }

/-- A heater `a` times as large, in the same condition. -/
def Sim.scale (a : ℚ) (s : Sim n k) : Sim n k :=
  { s with
    toPlant := s.toPlant.scale a
    cfg := s.cfg.scale a
    st := fun i => (s.st i).scale a
    energyRemoved_kWh := a * s.energyRemoved_kWh
    standbyLosses_kWh := a * s.standbyLosses_kWh
    extraEnergyInput_kWh := a * s.extraEnergyInput_kWh }

/-- The same conditions with `a` times the water drawn and the extra heat. -/
def Sim.StepInput.scale (a : ℚ) (u : Sim.StepInput) : Sim.StepInput :=
  { u with
    draw_L := a * u.draw_L
    inletVol2_L := a * u.inletVol2_L
    extraHeat_W := u.extraHeat_W.map (a * ·) }

/-- The same minute with `a` times the water drawn. -/
def Sim.RunInput.scale (a : ℚ) (u : Sim.RunInput) : Sim.RunInput := { u with draw_L := a * u.draw_L }

/-- Two heaters after a step or a run, the second `a` times as large: the same temperatures and times, energies and
volumes in proportion. -/
structure Spec.Proportional (a : ℚ) (t t' : Sim n k) : Prop where
  nodes : t'.tank.nodeTs = t.tank.nodeTs
  outlet : t'.tank.outletT = t.tank.outletT
  charge : t'.soc = t.soc
  setpoint : t'.setpoint = t.setpoint
  location : t'.locationT = t.locationT
  inflow : t'.condenserInlet = t.condenserInlet
  outflow : t'.condenserOutlet = t.condenserOutlet
  on : ∀ i, (t'.st i).isOn = (t.st i).isOn
  locked : ∀ i, (t'.st i).lockedOut = (t.st i).lockedOut
  runtime : ∀ i, (t'.st i).runtime_min = (t.st i).runtime_min
  input : ∀ i, (t'.st i).energyInput_kWh = a * (t.st i).energyInput_kWh
  output : ∀ i, (t'.st i).energyOutput_kWh = a * (t.st i).energyOutput_kWh
  losses : t'.standbyLosses_kWh = a * t.standbyLosses_kWh
  removed : t'.energyRemoved_kWh = a * t.energyRemoved_kWh
  extra : t'.extraEnergyInput_kWh = a * t.extraEnergyInput_kWh
  volume : t'.externalVolumeHeated = a * t.externalVolumeHeated
  content : t'.tank.heatContent = a * t.tank.heatContent

end HPWH
