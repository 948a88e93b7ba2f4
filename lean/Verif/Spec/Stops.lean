import Verif.Props.Control
import Verif.Spec.Recovery

/-! # When a resistance heater may stop (C101) -/

namespace HPWH.Spec

variable {n k : ℕ}

/-- Heat is spread evenly over some of `N` nodes. -/
def EvenlySpread (d : WDist) (N : ℕ) : Prop := ∃ w, ∀ j : Fin N, d.share N j = 0 ∨ d.share N j = w

/-- All water from the lowest node the element heats upwards is at the setpoint, or at 100 °C if that is lower. -/
def HotAbove (src : SourceCfg n k) (p : Plant n) : Prop :=
  ∀ i j : Fin (n + 1), src.heatDist.share (n + 1) i ≠ 0 → i ≤ j → min 100 p.setpoint ≤ p.tank.nodeTs j

/-- An element has heated all water above it, and the one that follows it, if any, is told to shut off. -/
def Finished (cfg : SimCfg n k) (p : Plant n) : Prop :=
  ∃ i, HotAbove (cfg.src i) p ∧ ∀ f, (cfg.src i).followedBy = some f → ToldToShutOff (cfg.src f) p

end HPWH.Spec
