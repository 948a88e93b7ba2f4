import Verif.Spec.Between
import Verif.Spec.SinglePass

/-! # Water heaters whose steps do not fail (C100) -/

namespace HPWH

variable {n k : ℕ}

/-- The setpoints at which a heat pump may be run: that of the heater and, in cold air, the one it is limited to. -/
def CondCfg.RunsAt (c : CondCfg) (setpoint x : ℚ) : Prop := x = setpoint ∨ x = c.maxOutT ∧ c.maxOutT ≤ setpoint

/-- A calculation with a bound on the number of passes of external heating returns: with every bound large enough it
gives the same result, and no error. -/
def Returns {α : Type} (x : ℕ → Res α) : Prop := ∃ bound y, ∀ fuel, bound ≤ fuel → x fuel = .ok y

namespace Sim

/-- A water heater the library can calculate for water between `lo` and `hi` and air between `airLo` and `airHi`:

* steps have a length, of one minute if the cooling of the room is modelled;
* what its logics look at can be calculated;
* a heat pump with defrosting has a map for it;
* the setpoint a heat pump is limited to in cold air is one that may be set, and so is that of the heater; if the heater
  is controlled by the state of charge, neither is below the least useful temperature;
* a heat pump with a backup reaches the setpoint;
* an external single-pass heat pump has bounded output and finishes for the reasons of C18: its shut-off logics look at
  nodes at or above its outlet, and one of them is below the temperature it heats to, or it heats from the top of a tank of
  at least 12 nodes that is nowhere above that temperature. -/
structure Ready (s : Sim n k) (lo : ℚ) (hi : WithTop ℚ) (airLo airHi : ℚ) : Prop where
  step : 0 < s.cfg.minutesPerStep
  minute : s.cfg.doTempDepression = true → s.cfg.minutesPerStep = 1
  logics : ∀ i l, l ∈ (s.cfg.src i).turnOn ∨ l ∈ (s.cfg.src i).shutOff ∨ (s.cfg.src i).standby = some l →
    l.Usable s.toPlant
  defrost : ∀ i c, (s.cfg.src i).kind = .condenser c → c.doDefrost = true → c.defrostMap ≠ []
  coldAir : ∀ i c air, (s.cfg.src i).kind = .condenser c → Lies airLo airHi air → air ≤ c.maxOutAirT →
    c.maxOutT ≤ s.setpoint → s.newSetpointPossible c.maxOutT = true ∧ s.newSetpointPossible s.setpoint = true
  charge : ∀ i c q, (s.cfg.src i).kind = .condenser c → s.socControl = some q → c.maxOutT ≤ s.setpoint →
    q.tempMinUseful ≤ c.maxOutT
  backup : ∀ i c, (s.cfg.src i).kind = .condenser c → (s.cfg.src i).backup ≠ none → s.setpoint ≤ c.maxSetpoint
  looksAbove : ∀ i c, (s.cfg.src i).kind = .condenser c → c.configuration = .external → c.isMultipass = false →
    ∀ l ∈ (s.cfg.src i).shutOff, l.LooksAbove (s.cfg.src i).externalOutlet
  bounded : ∀ i c, (s.cfg.src i).kind = .condenser c → c.configuration = .external → c.isMultipass = false →
    ∃ top : ℚ, ∀ x air water perf, c.RunsAt s.setpoint x → Lies airLo airHi air → Lies lo hi water →
      c.getPerformance (s.cfg.src i).airflowFreedom x air water = .ok perf → perf.outputPower_W ≤ top
  finishes : ∀ i c x, (s.cfg.src i).kind = .condenser c → c.configuration = .external → c.isMultipass = false →
    c.RunsAt s.setpoint x →
    (∃ l ∈ (s.cfg.src i).shutOff,
      l.comparisonValue { s.toPlant with setpoint := x } < min c.maxSetpoint x) ∨
    (s.cfg.src i).externalInlet = Fin.last n ∧ 12 ≤ n + 1 ∧ x ≤ c.maxSetpoint ∧ hi ≤ (x : WithTop ℚ)

end Sim

end HPWH
