import Verif.Spec.Alone
import Verif.Spec.Between

/-! # Recovery of resistance heaters (C92) -/

namespace HPWH.Spec

variable {n k : ℕ}

/-- A heat source that follows another comes after it in order. -/
def FollowersInOrder (s : Sim n k) : Prop := ∀ i f, (s.cfg.src i).followedBy = some f → i < f

/-- Every element has a power of at least `P` kW. -/
def AtLeast (s : Sim n k) (P : ℚ) : Prop := ∀ i w, (s.cfg.src i).kind = .resistance w → P ≤ w

/-- The most a tank with water up to `hi` °C can lose in a step to air of at least `air` °C (kJ). -/
def mostLost (s : Sim n k) (hi air : ℚ) : ℚ :=
  (2 * (s.tank.UA * s.tank.fracAreaTop) + (s.tank.UA * s.tank.fracAreaSide + s.tank.fittingsUA)) *
    (s.cfg.minutesPerStep / 60) * (hi - air)

/-- The heat it takes to bring all water of the tank to `hi` °C (kJ). -/
def heatTo (s : Sim n k) (hi : ℚ) : ℚ := Spec.tankHeat s.tank.volume_L (fun _ : Fin (n + 1) => hi) -
  Spec.tankHeat s.tank.volume_L s.tank.nodeTs

end HPWH.Spec
