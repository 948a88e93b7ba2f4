import Verif.Spec.Settings

/-! # What the initialisers should give (C81, C83) -/

namespace HPWH.Spec

variable {n k : ℕ}

/-- A heater as delivered: a tank of this volume (L) and heat loss coefficient (kJ/h K), full of water at its
setpoint of 127 °F, with everything switched off and steps of one minute; nothing is said yet about
the entering water, there is no state-of-charge control and the room is not cooled. -/
structure Delivered (s : Sim n k) (vol_L UA : ℚ) : Prop where
  volume : s.tank.volume_L = vol_L
  loss : s.tank.UA = UA
  setpoint : s.setpoint = (127 - 32) * 5 / 9
  hot : ∀ j, s.tank.nodeTs j = s.setpoint
  off : ∀ i, (s.st i).isOn = false
  unlocked : ∀ i, (s.st i).lockedOut = false
  idle : s.isHeating = false
  step : s.cfg.minutesPerStep = 1
  inlet : s.haveInletT = false
  control : s.socControl = none
  room : s.cfg.doTempDepression = false

/-- Heat source `i` is a resistance element of this power (W) which puts all its heat into one node. -/
structure ElementAt (s : Sim n k) (i : Fin k) (node : Fin (n + 1)) (power_W : ℚ) : Prop where
  power : (s.cfg.src i).kind = .resistance (power_W / 1000)
  place : (s.cfg.src i).heatDist.calcHeatDist (n + 1) = .ok fun j => if j = node then 1 else 0

/-- The relation of the rating procedure between energy factor, heat loss coefficient (kJ/h K) and power (W) of the
lower element, for a recovery efficiency of 98 %, water heated by 67.5 °F over the day and 41094 BTU delivered:
`1/EF = 1/RE + UA · 67.5 · (24/41094 − 1/(RE · P))` with UA in BTU/h °F and P in BTU/h. -/
def RatedAt (EF UA lower_W : ℚ) : Prop :=
  1 / EF = 1 / (98 / 100) +
    UA * (9478 / 10000) / (18 / 10) * (675 / 10) *
      (24 / 41094 - 1 / (98 / 100 * (lower_W * (341443 / 100000))))

end HPWH.Spec
