import Verif.Model.Settings
import Verif.Spec.Distribution

/-! # What the settings of a simulator mean -/

namespace HPWH.Spec

variable {n k : ℕ}

/-- A temperature in °C or °F, in °C. -/
def celsius : UnitTag → ℚ → Option ℚ
  | .C, x => some x
  | .F, x => some ((x - 32) * 5 / 9)
  | _, _ => none

/-- The heat source is a heat pump. -/
def IsHeatPump (s : SourceCfg n k) (c : CondCfg) : Prop := s.kind = .condenser c

/-- The heat source is a resistance element. -/
def IsElement (s : SourceCfg n k) : Prop := ∃ power, s.kind = .resistance power

/-- The heat pump the simulator reports on and rates: the last one in the list. -/
def MainHeatPump (src : Fin k → SourceCfg n k) (i : Fin k) (c : CondCfg) : Prop :=
  IsHeatPump (src i) c ∧ ∀ j, (∃ c', IsHeatPump (src j) c') → j ≤ i

/-- Relative height (0 bottom, 1 top) from which on a heat source gives off heat: nothing below, and
something in every range starting at the bottom and reaching above it. -/
def HeatsFrom (d : WDist) (h : ℚ) : Prop :=
  0 ≤ h ∧ h < 1 ∧ ∀ x, 0 ≤ x → x ≤ 1 → (densityIntegral 0 d.rel 0 x = 0 ↔ x ≤ h)

/-- A temperature (°C) the simulator can be asked to heat to:

* a model with a fixed setpoint only has that one;
* with a resistance element, up to the boiling point;
* otherwise with a heat pump, up to its limit less the approach of its heat exchanger;
* without heat sources any temperature of a storage tank.

The limits are met up to a billionth of a degree. -/
def SetpointAllowed (s : Sim n k) (x : ℚ) : Prop :=
  if s.cfg.setpointFixed = true then x = s.setpoint
  else
    ((∃ i, IsElement (s.cfg.src i)) → x ≤ 100 + 1 / 10 ^ 9) ∧
    ((¬ ∃ i, IsElement (s.cfg.src i)) → ∀ i c, MainHeatPump s.cfg.src i c →
      x ≤ c.maxSetpoint - c.hotSideOffset + 1 / 10 ^ 9) ∧
    (k = 0 → s.cfg.isStorageTank = true)

/-- The limit of the setpoint itself (°C), for a simulator that has one. -/
def SetpointLimit (s : Sim n k) (m : ℚ) : Prop :=
  if s.cfg.setpointFixed = true then m = s.setpoint
  else ((∃ i, IsElement (s.cfg.src i)) ∧ m = 100) ∨
    ((¬ ∃ i, IsElement (s.cfg.src i)) ∧
      ∃ i c, MainHeatPump s.cfg.src i c ∧ m = c.maxSetpoint - c.hotSideOffset)

/-- The simulator knows its main heat pump, and whether it has resistance elements. -/
structure Known (s : Sim n k) : Prop where
  heatPump : ∀ i, s.cfg.compressorIndex = some i ↔ ∃ c, MainHeatPump s.cfg.src i c
  element : s.cfg.lowestElementIndex ≠ none ↔ ∃ i, IsElement (s.cfg.src i)

/-- The values the simulator derives from its heat sources: in addition to the above,

* the element that heats from furthest down (the first of several);
* the first element marked as the one with priority;
* which heat sources cool the room: the heat pumps;
* the lowest node a heat source heats. -/
structure Derived (s : Sim n k) : Prop extends Known s where
  lowest : ∀ i, s.cfg.lowestElementIndex = some i ↔
    IsElement (s.cfg.src i) ∧ ∀ j, IsElement (s.cfg.src j) → ∀ a b,
      HeatsFrom (s.cfg.src i).heatDist a → HeatsFrom (s.cfg.src j).heatDist b →
      a ≤ b ∧ (j < i → a < b)
  priority : ∀ i, s.cfg.vipIndex = some i ↔
    (IsElement (s.cfg.src i) ∧ (s.cfg.src i).isVIP = true) ∧
    ∀ j, IsElement (s.cfg.src j) → (s.cfg.src j).isVIP = true → i ≤ j
  cools : ∀ i, (s.cfg.src i).depressesTemperature = true ↔ ∃ c, IsHeatPump (s.cfg.src i) c

end HPWH.Spec
