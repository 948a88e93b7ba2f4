import Verif.Spec.Alone

/-! # One heat source at a time (C111) -/

namespace HPWH.Spec

variable {n k : ℕ}

/-- No heat source has a companion, and heat sources with priority are elements. Heat sources may have backups and
followers. -/
structure NoCompanions (s : Sim n k) : Prop where
  noCompanion : ∀ j, (s.cfg.src j).companion = none
  priority : ∀ j, (s.cfg.src j).isVIP = true → ∃ power, (s.cfg.src j).kind = .resistance power

/-- No signal to top off, and no signal that locks out the elements but not the heat pumps. -/
def PlainSignal (dr : DR) : Prop := dr.too = false ∧ dr.tot = false ∧ (dr.lor = true → dr.loc = true)

end HPWH.Spec
