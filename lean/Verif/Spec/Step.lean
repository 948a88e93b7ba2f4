import Verif.Model.Run
import Verif.Spec.External
import Verif.Spec.Tank
import Mathlib.Order.WithBot

/-! # Conditions on configurations used in the statements about whole simulation steps -/

namespace HPWH

variable {n k : ℕ}

/-- A heat source whose heat the library accounts for, with air at `air` °C, the setpoint at
`setpoint` °C and water between `lo` and `hi` °C (`⊤`: no upper limit):

* a resistance element has positive power and a valid non-negative heat distribution;
* a condenser in or around the tank has a valid non-negative heat distribution and a non-zero
  shrinkage;
* an external condenser returns its water at or above the node it takes it from; a multi-pass one has
  a positive flow rate (and, since the setpoint does not limit it, no upper temperature limit is
  assumed); a single-pass one is shut off by upper temperature limits only;
* a condenser delivers positive power at all those water temperatures, at the setpoint and at the
  setpoint it is limited to in cold air. -/
structure SourceCfg.Sound (s : SourceCfg n k) (setpoint air lo : ℚ) (hi : WithTop ℚ) : Prop where
  resistance : ∀ power, s.kind = .resistance power → 0 < power ∧ s.heatDist.Proper
  internal : ∀ c, s.kind = .condenser c → c.configuration ≠ .external →
    s.heatDist.Proper ∧ s.shrinkageT ≠ 0
  external : ∀ c, s.kind = .condenser c → c.configuration = .external →
    s.externalOutlet ≤ s.externalInlet ∧
    (c.isMultipass = true → 0 < c.mpFlowRate_LPS ∧ hi = ⊤) ∧
    (c.isMultipass = false → ∀ l ∈ s.shutOff, l.UpperLimit)
  output : ∀ c, s.kind = .condenser c → ∀ x, x = setpoint ∨ x = c.maxOutT → ∀ water perf,
    lo ≤ water → (water : WithTop ℚ) ≤ hi →
    c.getPerformance s.airflowFreedom x air water = .ok perf → 0 < perf.outputPower_W

namespace Sim

/-- The room temperature the step uses when temperature depression is modelled: the tracked one, or
the given one if none has been tracked yet. -/
def roomT (s : Sim n k) (u : StepInput) : ℚ :=
  if s.locationT = uninitialisedLocation then u.tankAmbient else s.locationT

/-- Air temperature around the tank during a step. -/
def tankAirT (s : Sim n k) (u : StepInput) : ℚ :=
  if s.cfg.doTempDepression then s.roomT u else u.tankAmbient

/-- Air temperature at the heat sources during a step. -/
def sourceAirT (s : Sim n k) (u : StepInput) : ℚ :=
  if s.cfg.doTempDepression then s.roomT u else u.sourceAmbient

/-- The tank after the draw, the standby losses and conduction of a step, before any heating. -/
def DrawnTank (s : Sim n k) (u : StepInput) (t : Tank n) : Prop :=
  ({ s.tank with outletT := 0, standbyLosses_kJ := 0 } : Tank n).updateNodes
    (s.cfg.minutesPerStep / 60) (60 * s.cfg.minutesPerStep) u.draw_L s.inletT (s.tankAirT u)
    u.inletVol2_L u.inletT2 = .ok t

/-- Heat brought in by the water that enters during a step (kJ). A heat exchanger takes all its water
from the first inlet. -/
def inletHeat (s : Sim n k) (u : StepInput) : ℚ :=
  if u.draw_L = 0 then 0
  else if s.tank.hasHeatExchanger then Spec.waterHeat u.draw_L s.inletT
  else Spec.waterHeat (u.draw_L - u.inletVol2_L) s.inletT + Spec.waterHeat u.inletVol2_L u.inletT2

/-- Conditions under which the heat of a step is accounted for, with water between `lo` and `hi` °C:
a well-formed tank of at most 10000 nodes with inversion mixing and a heat-exchanger effectiveness in
`[0, 1]`; non-negative draw, step length and extra heat; a setpoint above absolute zero and at most
`hi`; the tank between `lo` and `hi` after the draw; and sound heat sources. -/
structure Accountable (s : Sim n k) (u : StepInput) (lo : ℚ) (hi : WithTop ℚ) : Prop where
  nodes : n + 1 ≤ 10000
  volume : 0 < s.tank.volume_L
  nodeVolume : s.tank.nodeVolume_L = s.tank.volume_L / (n + 1)
  nodeCp : s.tank.nodeCp = 4180 / 1000 * (995 / 1000) * s.tank.nodeVolume_L
  inlet : s.tank.inletHeight ≤ n
  inlet2 : s.tank.inlet2Height ≤ n
  mixBelow : s.tank.mixBelowFractionOnDraw ≤ 1
  mixing : s.tank.doInversionMixing = true
  effectiveness : s.tank.hasHeatExchanger = true → 0 ≤ s.tank.nodeHeatExchangerEffectiveness ∧
    s.tank.nodeHeatExchangerEffectiveness ≤ 1
  draw : 0 ≤ u.draw_L
  step : 0 ≤ s.cfg.minutesPerStep
  extra : ∀ x ∈ u.extraHeat_W, 0 ≤ x
  absolute : -27315 / 100 < s.setpoint
  setpoint : (s.setpoint : WithTop ℚ) ≤ hi
  range : ∀ t, s.DrawnTank u t → ∀ j, lo ≤ t.nodeTs j ∧ (t.nodeTs j : WithTop ℚ) ≤ hi
  sound : ∀ i, (s.cfg.src i).Sound s.setpoint (s.sourceAirT u) lo hi

/-- Conditions on a simulator alone under which the heat of every step is accounted for: as
`Accountable`, with heat sources sound at all air and water temperatures. -/
structure AlwaysAccountable (s : Sim n k) : Prop where
  nodes : n + 1 ≤ 10000
  volume : 0 < s.tank.volume_L
  nodeVolume : s.tank.nodeVolume_L = s.tank.volume_L / (n + 1)
  nodeCp : s.tank.nodeCp = 4180 / 1000 * (995 / 1000) * s.tank.nodeVolume_L
  inlet : s.tank.inletHeight ≤ n
  inlet2 : s.tank.inlet2Height ≤ n
  mixBelow : s.tank.mixBelowFractionOnDraw ≤ 1
  mixing : s.tank.doInversionMixing = true
  effectiveness : s.tank.hasHeatExchanger = true → 0 ≤ s.tank.nodeHeatExchangerEffectiveness ∧
    s.tank.nodeHeatExchangerEffectiveness ≤ 1
  step : 0 ≤ s.cfg.minutesPerStep
  absolute : -27315 / 100 < s.setpoint
  sound : ∀ i air lo, (s.cfg.src i).Sound s.setpoint air lo ⊤

end Sim

/-- The same heat source with another standby power if it is a condenser. -/
def SourceCfg.withStandby (s : SourceCfg n k) (x : ℚ) : SourceCfg n k :=
  { s with
    kind := match s.kind with
      | .resistance w => .resistance w
      | .condenser c => .condenser { c with standbyPower_kW := x } }

/-- The same simulator with other standby powers. -/
def Sim.withStandby (s : Sim n k) (x : Fin k → ℚ) : Sim n k :=
  { s with cfg := { s.cfg with src := fun i => (s.cfg.src i).withStandby (x i) } }

/-- Consecutive steps: `s t` is the state before step `t`, `u t` its inputs, for the first `N` steps. -/
def Sim.History (m : Libm) (fuel : ℕ) (N : ℕ) (s : ℕ → Sim n k) (u : ℕ → Sim.StepInput) : Prop :=
  ∀ t < N, Sim.runOneStep m fuel (s t) (u t) = .ok (s (t + 1))

/-- The signal without its top-off parts. -/
def DR.noTopOff (d : DR) : DR := { d with too := false, tot := false }

/-- The simulator with the heat sources in `E` switched on. -/
def Sim.switchedOn (s : Sim n k) (E : Finset (Fin k)) : Sim n k :=
  { s with
    st := fun i => { s.st i with isOn := (s.st i).isOn || decide (i ∈ E) }
    isHeating := s.isHeating || decide E.Nonempty }

/-- A heat source that cools the room is on, and not locked out, at the end of a step. -/
def Sim.CoolsRoom (s : Sim n k) : Prop :=
  ∃ i, (s.st i).isOn = true ∧ (s.st i).lockedOut = false ∧
    (s.cfg.src i).depressesTemperature = true

instance (s : Sim n k) : Decidable s.CoolsRoom := by unfold Sim.CoolsRoom; infer_instance

/-- Consecutive single steps with the inputs `us`: `s t` is the state before step `t`. -/
def Sim.StepsThrough (m : Libm) (fuel : ℕ) (us : List Sim.RunInput) (s : ℕ → Sim n k) : Prop :=
  ∀ t : Fin us.length, Sim.runOneStepAt m fuel (s t) us[t] = .ok (s (t + 1))

/-- The state `s'` is the last of the states `s` with outputs summed over the steps and the mean
outlet temperature weighted with the draws. -/
structure Sim.Aggregates (us : List Sim.RunInput) (s : ℕ → Sim n k) (s' : Sim n k) : Prop where
  last : s' = { s us.length with
    energyRemoved_kWh := s'.energyRemoved_kWh
    standbyLosses_kWh := s'.standbyLosses_kWh
    tank := { (s us.length).tank with outletT := s'.tank.outletT }
    st := s'.st }
  switches : ∀ i, (s'.st i).isOn = ((s us.length).st i).isOn ∧
    (s'.st i).lockedOut = ((s us.length).st i).lockedOut
  removed : s'.energyRemoved_kWh = ∑ t : Fin us.length, (s (t + 1)).energyRemoved_kWh
  standby : s'.standbyLosses_kWh = ∑ t : Fin us.length, (s (t + 1)).standbyLosses_kWh
  outlet : s'.tank.outletT = (∑ t : Fin us.length, (s (t + 1)).tank.outletT * us[t].draw_L) /
    ∑ t : Fin us.length, us[t].draw_L
  runtime : ∀ i, (s'.st i).runtime_min = ∑ t : Fin us.length, ((s (t + 1)).st i).runtime_min
  input : ∀ i, (s'.st i).energyInput_kWh = ∑ t : Fin us.length, ((s (t + 1)).st i).energyInput_kWh
  output : ∀ i,
    (s'.st i).energyOutput_kWh = ∑ t : Fin us.length, ((s (t + 1)).st i).energyOutput_kWh

end HPWH
