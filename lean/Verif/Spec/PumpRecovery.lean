import Verif.Spec.Recovery

/-! # Recovery of water heaters with one heat pump (C106) -/

namespace HPWH.Spec

variable {n : ℕ}

/-- The only heat source is a heat pump, without backup and with none to follow it. With water between `lo` and `hi` and
air between `airLo` and `airHi` it delivers at least `P` kW, at the setpoint and at the one it is limited to in cold
air. -/
structure OnePump (s : Sim n 1) (P lo hi airLo airHi : ℚ) : Prop where
  pump : ∃ c, (s.cfg.src 0).kind = .condenser c
  noBackup : (s.cfg.src 0).backup = none
  noFollower : (s.cfg.src 0).followedBy = none
  output : ∀ c, (s.cfg.src 0).kind = .condenser c → ∀ x, x = s.setpoint ∨ x = c.maxOutT → ∀ air water perf,
    airLo ≤ air → air ≤ airHi → lo ≤ water → water ≤ hi →
    c.getPerformance (s.cfg.src 0).airflowFreedom x air water = .ok perf → 1000 * P ≤ perf.outputPower_W

end HPWH.Spec
