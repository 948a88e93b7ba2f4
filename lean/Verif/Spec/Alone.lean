import Verif.Model.Sim

/-! # Elements that take turns (C82) -/

namespace HPWH.Spec

variable {n k : ℕ}

/-- Resistance elements only, none of them the backup or companion of another. One may follow another. -/
structure ElementsOnly (s : Sim n k) : Prop where
  element : ∀ i, ∃ w, (s.cfg.src i).kind = .resistance w
  noBackup : ∀ i, (s.cfg.src i).backup = none
  noCompanion : ∀ i, (s.cfg.src i).companion = none
  noCompressor : s.cfg.compressorIndex = none

/-- At most one heat source is switched on, and the simulator knows if there is one. -/
structure OneAtMost (s : Sim n k) : Prop where
  alone : ∀ i j, (s.st i).isOn = true → (s.st j).isOn = true → i = j
  known : ∀ i, (s.st i).isOn = true → s.isHeating = true

end HPWH.Spec
