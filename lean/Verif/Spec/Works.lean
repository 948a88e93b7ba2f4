import Verif.Props.Accept
import Verif.Spec.Between

/-! # Heaters built to work between two temperatures (C84, C85) -/

namespace HPWH.Spec

variable {n k : ℕ}

/-- What the library does not check about a configuration, but one that is to work with water between `lo` and `hi`
and air between `airLo` and `airHi` has; as `Meaningful`, but performance is asked for at these temperatures only. -/
structure Built (s : Sim n k) (lo : ℚ) (hi : WithTop ℚ) (airLo airHi : ℚ) : Prop where
  nodes : n + 1 ≤ 10000
  volume : 0 < s.tank.volume_L
  inlet : s.tank.inletHeight ≤ n
  inlet2 : s.tank.inlet2Height ≤ n
  mixBelow : s.tank.mixBelowFractionOnDraw ≤ 1
  mixing : s.tank.doInversionMixing = true
  exchanger : 0 ≤ s.tank.heatExchangerEffectiveness
  fittings : 0 ≤ s.tank.fittingsUA
  step : 0 ≤ s.cfg.minutesPerStep
  room : s.cfg.doTempDepression = false
  absolute : -27315 / 100 < s.setpoint
  setpoint : (s.setpoint : WithTop ℚ) ≤ hi
  water : ∀ j, Lies lo hi (s.tank.nodeTs j)
  weights : ∀ i, ∀ p ∈ (s.cfg.src i).heatDist, 0 ≤ p.weight
  spread : ∀ i c, IsHeatPump (s.cfg.src i) c → c.configuration ≠ .external →
    SpreadOut (s.cfg.src i).heatDist (n + 1)
  power : ∀ i w, (s.cfg.src i).kind = .resistance w → 0 < w
  external : ∀ i c, IsHeatPump (s.cfg.src i) c → c.configuration = .external →
    (s.cfg.src i).externalOutlet ≤ (s.cfg.src i).externalInlet ∧
    (c.isMultipass = true → 0 < c.mpFlowRate_LPS ∧ hi = ⊤) ∧
    (c.isMultipass = false → ∀ l ∈ (s.cfg.src i).shutOff, l.UpperLimit)
  output : ∀ i c, IsHeatPump (s.cfg.src i) c → ∀ x, x = s.setpoint ∨ x = c.maxOutT → ∀ air water perf,
    Lies airLo airHi air → Lies lo hi water →
    c.getPerformance (s.cfg.src i).airflowFreedom x air water = .ok perf → 0 < perf.outputPower_W

/-- Heat lost and conducted in a minute: at most the difference to its neighbours and the room can leave a node. -/
def Gentle (s : Sim n k) : Prop :=
  2 * s.tank.tau (60 * s.cfg.minutesPerStep) +
    (2 * (s.tank.UA * s.tank.fracAreaTop) + (s.tank.UA * s.tank.fracAreaSide + s.tank.fittingsUA) / (n + 1)) *
      (s.cfg.minutesPerStep / 60) / s.tank.nodeCp ≤ 1

/-- `pow x (1/3)` is, as far as needed, a cube root: no more than 1 % below. -/
def CubeRoots (pow : ℚ → ℚ → ℚ) : Prop := ∀ a x, 0 < a → a ^ 3 ≤ x → 99 / 100 * a ≤ pow x (1 / 3)

end HPWH.Spec
