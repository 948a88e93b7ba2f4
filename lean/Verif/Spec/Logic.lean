import Verif.Model.Plant

/-! # What a heating logic means -/

namespace HPWH.Spec

variable {n : ℕ}

/-- The value a heating logic looks at: the temperature of the bottom or top node, a weighted average
temperature, or the state of charge (which needs a mains temperature). -/
def Reads (l : Logic) (p : Plant n) (v : ℚ) : Prop :=
  match l.kind with
  | .temp _ .bottom => v = p.tank.nodeTs 0
  | .temp _ .top => v = p.tank.nodeTs (Fin.last n)
  | .temp _ (.weighted d) => d.averageT p.tank.nodeTs = .ok v
  | .soc _ _ useConst _ => v = p.soc ∧ (p.haveInletT = true ∨ useConst = true)

/-- The value it is compared with: an absolute temperature, a temperature below the setpoint, or a
target state of charge with its hysteresis. -/
def threshold (l : Logic) (p : Plant n) : ℚ :=
  match l.kind with
  | .temp true _ => l.decisionPoint
  | .temp false _ => p.setpoint - l.decisionPoint
  | .soc _ hysteresis _ _ => l.decisionPoint + hysteresis

/-- Comparison `c` between a reading and a threshold. -/
def Passes (c : Cmp) (reading threshold : ℚ) : Prop :=
  match c with
  | .less => reading < threshold
  | .greater => threshold < reading

/-- The logic is satisfied in the present state of the tank. -/
def Fires (l : Logic) (p : Plant n) : Prop := ∃ v, Reads l p v ∧ Passes l.cmp v (threshold l p)

end HPWH.Spec
