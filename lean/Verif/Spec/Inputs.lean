import Verif.Model.Run

/-! # Inputs of a step that play no part (C107) -/

namespace HPWH.Spec

variable {n k : ℕ}

/-- The temperature of the air at the heat sources plays no part in what a water heater does: all its heat sources are
resistance elements, or the temperature of the room is modelled and used in its place. -/
def IgnoresSourceAir (s : Sim n k) : Prop :=
  s.cfg.doTempDepression = true ∨ ∀ i, ∃ power, (s.cfg.src i).kind = .resistance power

/-- Two inputs of a step that differ only in what plays no part:
* the temperature of the air at the heat sources, if the water heater ignores it;
* the temperature of the second inlet, if no water enters there;
* both volume and temperature of the second inlet, if nothing is drawn, or if the water drawn is heated in a heat
  exchanger and the second volume does not exceed the draw. -/
structure SameInput (s : Sim n k) (u u' : Sim.StepInput) : Prop where
  draw : u'.draw_L = u.draw_L
  tankAmbient : u'.tankAmbient = u.tankAmbient
  sourceAmbient : u'.sourceAmbient = u.sourceAmbient ∨ IgnoresSourceAir s
  dr : u'.dr = u.dr
  second : u'.inletVol2_L = u.inletVol2_L ∧ u'.inletT2 = u.inletT2 ∨
    u'.inletVol2_L = 0 ∧ u.inletVol2_L = 0 ∨ u.draw_L = 0 ∨
    s.tank.hasHeatExchanger = true ∧ u'.inletVol2_L ≤ u.draw_L ∧ u.inletVol2_L ≤ u.draw_L
  extraHeat : u'.extraHeat_W = u.extraHeat_W

end HPWH.Spec
