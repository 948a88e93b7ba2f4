import Verif.Spec.Reasons

/-! # Water heaters left alone (C95) -/

namespace HPWH

open Spec

variable {n k : ℕ}

namespace Sim

/-- A water heater whose steps are short enough for its heat losses and conduction: no more than the difference to its
neighbours and the room can leave a node in one step. The cooling of the room by the heat pump is not modelled. -/
structure Insulated (s : Sim n k) : Prop where
  volume : 0 < s.tank.volume_L
  nodeVolume : s.tank.nodeVolume_L = s.tank.volume_L / (n + 1)
  nodeCp : s.tank.nodeCp = 4180 / 1000 * (995 / 1000) * s.tank.nodeVolume_L
  step : 0 ≤ s.cfg.minutesPerStep
  ends : 0 ≤ s.tank.UA * s.tank.fracAreaTop
  side : 0 ≤ s.tank.UA * s.tank.fracAreaSide + s.tank.fittingsUA
  gentle : 2 * s.tank.tau (60 * s.cfg.minutesPerStep) +
    (2 * (s.tank.UA * s.tank.fracAreaTop) + (s.tank.UA * s.tank.fracAreaSide + s.tank.fittingsUA) / (n + 1)) *
      (s.cfg.minutesPerStep / 60) / s.tank.nodeCp ≤ 1
  room : s.cfg.doTempDepression = false

/-- Nothing is done to the water heater in a step: no water is drawn, no extra heat is added, the air around the tank is
at `amb`, and the heat sources stay off, because they are locked out or because nothing is on and nothing asks for
heat. -/
structure Undisturbed (s : Sim n k) (u : StepInput) (amb : ℚ) : Prop where
  draw : u.draw_L = 0
  extra : u.extraHeat_W = []
  around : u.tankAmbient = amb
  off : (u.dr.loc = true ∧ u.dr.lor = true) ∨
    ((∀ i, (s.st i).isOn = false) ∧ s.isHeating = false ∧ ¬ ToppingOff s u.dr ∧
      ∀ p, AfterDraw s u p → ∀ i, ¬ Calls s p i)

/-- The part of its excess over the air that a tank loses through its wall and fittings in a step: conductance (kJ/h°C)
times hours, over the heat capacity of the water. -/
def wallShare (s : Sim n k) : ℚ :=
  (s.tank.UA * s.tank.fracAreaSide + s.tank.fittingsUA) * (s.cfg.minutesPerStep / 60) /
    (4180 / 1000 * (995 / 1000) * s.tank.volume_L)

/-- The part of its excess over the air that a node with top, bottom and its part of the wall would lose in a step. -/
def nodeShare (s : Sim n k) : ℚ :=
  (2 * (s.tank.UA * s.tank.fracAreaTop) + (s.tank.UA * s.tank.fracAreaSide + s.tank.fittingsUA) / (n + 1)) *
    (s.cfg.minutesPerStep / 60) / (4180 / 1000 * (995 / 1000) * (s.tank.volume_L / (n + 1)))

end Sim

end HPWH
