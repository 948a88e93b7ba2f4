import Verif.Spec.Alone

/-! # Backups that stand in (C109) -/

namespace HPWH.Spec

variable {n k : ℕ}

/-- Heat source `i` is a heat pump whose backup is the element `b`. No other heat source has a backup, and there are no
companions, no followers and no heat source with priority. -/
structure PumpWithBackup (s : Sim n k) (i b : Fin k) (power : ℚ) : Prop where
  pump : ∃ c, (s.cfg.src i).kind = .condenser c
  element : (s.cfg.src b).kind = .resistance power
  backup : (s.cfg.src i).backup = some b
  noBackup : ∀ j, j ≠ i → (s.cfg.src j).backup = none
  noCompanion : ∀ j, (s.cfg.src j).companion = none
  noFollower : ∀ j, (s.cfg.src j).followedBy = none
  noPriority : s.cfg.vipIndex = none ∧ ∀ j, (s.cfg.src j).isVIP = false

/-- In the step that ended in `s'` heat source `j` did nothing. -/
def Idle (s' : Sim n k) (j : Fin k) : Prop := (s'.st j).runtime_min = 0 ∧ (s'.st j).energyOutput_kWh = 0

end HPWH.Spec
