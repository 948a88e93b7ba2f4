import Verif.Model.Sim

/-! # What stays when performance is replaced (C102) -/

namespace HPWH.Spec

variable {n k : ℕ}

/-- Heat source `b` is heat source `a`, except for its performance if it is a heat pump. -/
def SameButPerformance (a b : SourceCfg n k) : Prop :=
  b = a ∨ ∃ c f, a.kind = .condenser c ∧ b = { a with kind := .condenser { c with evaluate := f } }

/-- Two simulators differ at most in the performance of heat source `i`. -/
structure DifferIn (i : Fin k) (s t : Sim n k) : Prop where
  rest : t = { s with cfg := { s.cfg with src := t.cfg.src } }
  others : ∀ j, j ≠ i → t.cfg.src j = s.cfg.src j
  source : SameButPerformance (s.cfg.src i) (t.cfg.src i)

end HPWH.Spec
