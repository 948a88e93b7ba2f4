import Verif.Model.Make
import Verif.Model.Preset

/-! # Replacing the performance of the heat pump (src/HPWH.cc:1802-1832) -/

namespace HPWH

variable {n k : ℕ}

/-- `makeCondenserPerformance`, src/HPWH.cc:1813-1832, with polynomials of each of its three kinds (the other values of
`PerfData` are not arguments of it). Without a condenser it does nothing. -/
def Sim.makeCondenserPerformance (s : Sim n k) (d : PerfData) : Sim n k :=
  match s.firstCondenser with
  | none => s
  | some i =>
    match (s.cfg.src i).kind with
    | .condenser c =>
      { s with cfg := { s.cfg with src := Function.update s.cfg.src i { s.cfg.src i with
          kind := .condenser { c with evaluate := d.make (fun _ _ _ => ⟨0, 0, 0⟩) c } } } }
    | .resistance _ => s

end HPWH
