import Verif.Spec.External

/-! # Logics that look at the upper part of the tank (C18) -/

namespace HPWH

variable {n : ℕ}

/-- The logic takes no account of nodes below `o`. -/
def Logic.LooksAbove (l : Logic) (o : Fin (n + 1)) : Prop :=
  match l.kind with
  | .temp _ .bottom => o = 0
  | .temp _ .top => True
  | .temp _ (.weighted d) => ∀ j : Fin (n + 1), j < o → d.share (n + 1) j = 0
  | .soc _ _ _ _ => False

/-- The logic shuts off when the state of charge rises above a limit, and counts the charge as the
plant does. -/
def Logic.SoCLimit (l : Logic) (p : Plant n) : Prop :=
  l.cmp = .greater ∧ ∃ minUseful hyst useConst constMains,
    l.kind = .soc minUseful hyst useConst constMains ∧
    p.socControl = some ⟨minUseful, useConst, constMains⟩

/-- A tank heated through to the temperature `t`, which is above the minimum useful one, has a state of
charge above the logic's limit. -/
def Logic.MetAt (l : Logic) (p : Plant n) (t : ℚ) : Prop :=
  ∃ c x, p.socControl = some c ∧ c.tempMinUseful < t ∧
    calcSoCFraction (fun _ : Fin (n + 1) => t) (p.mainsT c.useConstantMains c.constantMains)
      c.tempMinUseful p.setpoint = .ok x ∧ l.comparisonValue p < x

end HPWH
