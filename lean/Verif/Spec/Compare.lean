import Verif.Spec.Between
import Verif.Spec.Cooling

/-! # Comparing water heaters (C96, C97) -/

namespace HPWH

variable {n k : ℕ}

namespace Sim

/-- The heat sources of the water heater can only warm water that is not warmer than `hi`: they are resistance elements,
condensers in or around the tank, or external condensers that heat in a single pass to a temperature that is not below
`hi`. -/
def WarmsOnly (s : Sim n k) (hi : WithTop ℚ) : Prop :=
  ∀ i c, (s.cfg.src i).kind = .condenser c → c.configuration = .external →
    c.isMultipass = false ∧ hi ≤ (c.maxSetpoint : WithTop ℚ) ∧ hi ≤ (s.setpoint : WithTop ℚ) ∧
      hi ≤ (c.maxOutT : WithTop ℚ)

/-- A water heater as left alone (C95), whose inlets lie in the tank and whose heat exchanger, if any, is no more than
perfect. -/
structure Tame (s : Sim n k) : Prop extends s.Insulated where
  inlet : s.tank.inletHeight ≤ n
  inlet2 : s.tank.inlet2Height ≤ n
  mixBelow : s.tank.mixBelowFractionOnDraw ≤ 1
  effectiveness : s.tank.hasHeatExchanger = true → 0 ≤ s.tank.nodeHeatExchangerEffectiveness ∧
    s.tank.nodeHeatExchangerEffectiveness ≤ 1

/-- A draw that is not negative and that a heat exchanger, if any, can serve within the step. -/
structure CanSupply (s : Sim n k) (u : RunInput) : Prop where
  draw : 0 ≤ u.draw_L
  exchanger : s.tank.hasHeatExchanger = true →
    s.tank.nodeHeatExchangerEffectiveness * u.draw_L ≤ s.tank.nodeVolume_L

/-- A step with the water and air of `v` is at most as favourable as one with those of `u`: as much water is drawn, and
the water that comes in and the air around the tank are not warmer. -/
structure RunInput.NotWarmer (v u : RunInput) : Prop where
  draw : v.draw_L = u.draw_L
  inlet : v.inletT ≤ u.inletT
  around : v.tankAmbient ≤ u.tankAmbient

/-- All heat sources are locked out by the signal. -/
def RunInput.LockedOut (u : RunInput) : Prop := u.dr.loc = true ∧ u.dr.lor = true

/-- Two water heaters with the same tank and the same step length, with no cooling of the room by the heat pump. They
may differ in their heat sources and their state. -/
structure SameTank (s : Sim n k) {k' : ℕ} (w : Sim n k') : Prop where
  tank : w.tank.toTankCfg = s.tank.toTankCfg
  step : w.cfg.minutesPerStep = s.cfg.minutesPerStep
  room : s.cfg.doTempDepression = false ∧ w.cfg.doTempDepression = false

/-- Water in `w` is nowhere warmer than in `s`. -/
def NowhereWarmer {k' : ℕ} (w : Sim n k') (s : Sim n k) : Prop := ∀ j, w.tank.nodeTs j ≤ s.tank.nodeTs j

end Sim

end HPWH
