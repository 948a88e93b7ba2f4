import Verif.Model.Run

/-! # Specification vocabulary: the state a simulator carries from one step to the next -/

namespace HPWH

variable {n k : ℕ}

/-- Two simulators with the same settings whose water, switches, lock-outs and timer are the same. What they report about
the past (run times, energies, losses, volumes, outlet and condenser temperatures) and the inlet temperature they were
last given may differ, and so may a state of charge that is computed anew in every step. -/
structure Sim.SameState (s s' : Sim n k) : Prop where
  settings : s.cfg = s'.cfg
  tank : s.tank.toTankCfg = s'.tank.toTankCfg
  water : s.tank.nodeTs = s'.tank.nodeTs
  setpoint : s.setpoint = s'.setpoint
  socControl : s.socControl = s'.socControl
  soc : s.socControl = none → s.soc = s'.soc
  switches : ∀ i, (s.st i).isOn = (s'.st i).isOn
  locks : ∀ i, (s.st i).lockedOut = (s'.st i).lockedOut
  heating : s.isHeating = s'.isHeating
  timer : s.timerTOT = s'.timerTOT
  room : s.locationT = s'.locationT

/-- The volume drawn in a run. -/
def drawn (us : List Sim.RunInput) : ℚ := (us.map (·.draw_L)).sum

end HPWH
