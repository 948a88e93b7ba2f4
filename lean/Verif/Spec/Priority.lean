import Verif.Spec.Alone
import Verif.Spec.Stops
import Verif.Spec.Backup
import Verif.Spec.Compare

/-! # Elements with priority (C110) -/

namespace HPWH.Spec

variable {n k : ℕ}

/-- Heat source `v` is an element with priority, and no other heat source has priority. There are no companions. The
other heat sources may be elements or heat pumps, with or without backups and followers. -/
structure Priority (s : Sim n k) (v : Fin k) : Prop where
  element : ∃ power, (s.cfg.src v).kind = .resistance power
  first : ∀ j, (s.cfg.src j).isVIP = true ↔ j = v
  noCompanion : ∀ j, (s.cfg.src j).companion = none

end HPWH.Spec
