import Verif.Model.HeatSource
import Verif.Spec.Distribution

/-! # Conditions on plants and heating logics used in the statements about external heating -/

namespace HPWH

variable {n k : ℕ}

/-- Two plants with the same settings: they may differ in node temperatures, state of charge and the
outputs of external heating. -/
def Plant.SameSettings (p q : Plant n) : Prop :=
  q.tank = { p.tank with nodeTs := q.tank.nodeTs } ∧ q.setpoint = p.setpoint ∧
    q.inletT = p.inletT ∧ q.haveInletT = p.haveInletT ∧ q.socControl = p.socControl

/-- Water temperatures at which external heating of plant `p` may evaluate and use the performance of
condenser `c`: not below the coldest node and, in single-pass heating, below the target. -/
def Plant.MayDraw (p : Plant n) (c : CondCfg) (w : ℚ) : Prop :=
  (∃ j, p.tank.nodeTs j ≤ w) ∧ (c.isMultipass = false → w < min c.maxSetpoint p.setpoint)

/-- A heating logic whose value the library can compute for plant `p`: a weighted logic has a valid
non-negative distribution; a state-of-charge logic knows the mains temperature. -/
def Logic.Usable (l : Logic) (p : Plant n) : Prop :=
  match l.kind with
  | .temp _ (.weighted d) => d.Proper
  | .temp _ _ => True
  | .soc _ _ useConst _ => p.haveInletT = true ∨ useConst = true

/-- A plant whose state of charge the library can compute: it is not used, or the mains temperature is
below the minimum useful temperature and that is not above the setpoint. -/
def Plant.SoCUsable (p : Plant n) : Prop :=
  ∀ c, p.socControl = some c →
    p.mainsT c.useConstantMains c.constantMains < c.tempMinUseful ∧ c.tempMinUseful ≤ p.setpoint

/-- A logic of the kind the single-pass calculation is meant for: it shuts off when a temperature
rises above a limit. -/
def Logic.UpperLimit (l : Logic) : Prop :=
  l.cmp = .greater ∧ ∃ a d, l.kind = .temp a d

/-- A logic that shuts off above a limit, of temperature or of state of charge; in the latter case
with the mains temperature below the minimum useful temperature. -/
def Logic.ShutsOffAbove (l : Logic) (p : Plant n) : Prop :=
  l.cmp = .greater ∧ match l.kind with
    | .temp _ _ => True
    | .soc minUseful _ useConst constMains => p.mainsT useConst constMains < minUseful

end HPWH
