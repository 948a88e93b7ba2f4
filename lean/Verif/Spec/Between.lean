import Verif.Spec.Step
import Verif.Model.Run

/-! # Water heaters between two temperatures (C83) -/

namespace HPWH

variable {n k : ℕ}

/-- A temperature between `lo` and `hi`; there may be no upper limit. -/
def Lies (lo : ℚ) (hi : WithTop ℚ) (x : ℚ) : Prop := lo ≤ x ∧ (x : WithTop ℚ) ≤ hi

namespace Sim

/-- A water heater whose water and setpoint lie between `lo` and `hi`, and whose heat sources are sound for water
between these and air between `airLo` and `airHi`. Steps are short enough for heat losses and conduction: no more
than the difference to its neighbours and the room can leave a node in one step. -/
structure WorksBetween (s : Sim n k) (lo : ℚ) (hi : WithTop ℚ) (airLo airHi : ℚ) : Prop where
  nodes : n + 1 ≤ 10000
  volume : 0 < s.tank.volume_L
  nodeVolume : s.tank.nodeVolume_L = s.tank.volume_L / (n + 1)
  nodeCp : s.tank.nodeCp = 4180 / 1000 * (995 / 1000) * s.tank.nodeVolume_L
  inlet : s.tank.inletHeight ≤ n
  inlet2 : s.tank.inlet2Height ≤ n
  mixBelow : s.tank.mixBelowFractionOnDraw ≤ 1
  mixing : s.tank.doInversionMixing = true
  effectiveness : s.tank.hasHeatExchanger = true → 0 ≤ s.tank.nodeHeatExchangerEffectiveness ∧
    s.tank.nodeHeatExchangerEffectiveness ≤ 1
  step : 0 ≤ s.cfg.minutesPerStep
  absolute : -27315 / 100 < s.setpoint
  ends : 0 ≤ s.tank.UA * s.tank.fracAreaTop
  side : 0 ≤ s.tank.UA * s.tank.fracAreaSide + s.tank.fittingsUA
  gentle : 2 * s.tank.tau (60 * s.cfg.minutesPerStep) +
    (2 * (s.tank.UA * s.tank.fracAreaTop) + (s.tank.UA * s.tank.fracAreaSide + s.tank.fittingsUA) / (n + 1)) *
      (s.cfg.minutesPerStep / 60) / s.tank.nodeCp ≤ 1
  setpoint : (s.setpoint : WithTop ℚ) ≤ hi
  water : ∀ j, Lies lo hi (s.tank.nodeTs j)
  room : s.cfg.doTempDepression = true → 0 ≤ s.cfg.maxDepression ∧
    (s.locationT = uninitialisedLocation ∨ Lies lo hi s.locationT ∧ Lies airLo airHi s.locationT)
  sound : ∀ i air, Lies airLo airHi air → (s.cfg.src i).Sound s.setpoint air lo hi

/-- The water that flows in and the air lie between the same limits; no extra heat. If the cooling of the room is
modelled, also the air cooled as far as it can be. -/
structure SuppliedBetween (s : Sim n k) (inletT : ℚ) (u : StepInput) (lo : ℚ) (hi : WithTop ℚ) (airLo airHi : ℚ) :
    Prop where
  draw : 0 ≤ u.draw_L
  second : 0 ≤ u.inletVol2_L
  inlet : Lies lo hi inletT
  inlet2 : u.inletVol2_L = 0 ∨ Lies lo hi u.inletT2
  exchanger : s.tank.hasHeatExchanger = true →
    s.tank.nodeHeatExchangerEffectiveness * u.draw_L ≤ s.tank.nodeVolume_L
  extra : u.extraHeat_W = []
  around : Lies lo hi u.tankAmbient
  source : s.cfg.doTempDepression = false → Lies airLo airHi u.sourceAmbient
  cooled : s.cfg.doTempDepression = true → Lies airLo airHi u.tankAmbient ∧
    Lies lo hi (u.tankAmbient - s.cfg.maxDepression) ∧ Lies airLo airHi (u.tankAmbient - s.cfg.maxDepression)

end Sim

end HPWH
