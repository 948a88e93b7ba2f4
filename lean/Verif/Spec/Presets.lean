import Verif.Spec.Settings
import Verif.Spec.Between
import Verif.Model.PresetTable

/-! # What the built-in models should do (C85, C86) -/

namespace HPWH.Spec

variable {n k : ℕ}

/-- A built-in model as delivered: its setpoint and volume; full of water of one temperature, its setpoint unless the
model says otherwise; everything switched off, steps of one minute, nothing said yet about the entering water; the heat
sources are those listed, with nothing but the derived values added. -/
structure AsListed (p : Preset) (grid : ℚ → ℚ → ℚ → Perf) (s : Sim p.n p.k) : Prop where
  setpoint : s.setpoint = p.setpoint
  volume : s.tank.volume_L = match p.resize with
    | none => p.volume_L
    | some gal => gal * (378541 / 100000)
  hot : ∀ j, s.tank.nodeTs j = p.initial.getD p.setpoint
  exchanger : s.tank.hasHeatExchanger = p.hasHeatExchanger
  source : ∀ i, s.cfg.src i = { (p.src i).source grid with
    shrinkageT := (s.cfg.src i).shrinkageT
    lowestNode := (s.cfg.src i).lowestNode
    depressesTemperature := (s.cfg.src i).depressesTemperature }
  off : ∀ i, (s.st i).isOn = false
  unlocked : ∀ i, (s.st i).lockedOut = false
  idle : s.isHeating = false
  step : s.cfg.minutesPerStep = 1
  inlet : s.haveInletT = false
  control : s.socControl = none
  room : s.cfg.doTempDepression = false

/-- Temperatures (°F): air at the heat pump, and water. -/
structure Limits where
  airLo : ℚ
  airHi : ℚ
  waterLo : ℚ
  waterHi : ℚ

/-- A temperature (°C) of water, or of the air around the tank, within the limits. -/
def Limits.water (l : Limits) (x : ℚ) : Prop := l.waterLo ≤ x * 9 / 5 + 32 ∧ x * 9 / 5 + 32 ≤ l.waterHi

/-- A temperature (°C) of the air at the heat pump within the limits. -/
def Limits.air (l : Limits) (x : ℚ) : Prop := l.airLo ≤ x * 9 / 5 + 32 ∧ x * 9 / 5 + 32 ≤ l.airHi

/-- The limits within which a model is to be used: air between 20 and 120 °F and water between freezing and 150 °F, with
these exceptions. -/
def limits (name : String) : Limits :=
  if name = "AquaThermAire" then ⟨20, 120, 35, 150⟩
  else if name = "GenericUEF217" then ⟨32, 90, 32, 127⟩
  else if name ∈ ["Rheem2020Prem40", "Rheem2020Prem50", "Rheem2020Prem65", "Rheem2020Prem80", "RheemPlugInShared40",
      "RheemPlugInShared50", "RheemPlugInShared65", "RheemPlugInShared80"] then ⟨37, 120, 32, 140⟩
  else ⟨20, 120, 32, 150⟩

/-- A setpoint (°C) between 80 and 212 °F. -/
def UsualSetpoint (x : ℚ) : Prop := 80 ≤ x * 9 / 5 + 32 ∧ x * 9 / 5 + 32 ≤ 212

/-- Some heat pump of the model is described by a table, which Btwxt interpolates. -/
def HasTable (p : Preset) : Prop := ∃ i, (p.src i).perf = .grid

/-- Btwxt gives positive COP and input power within the limits, and up to 10 °F above: some models add 5 °F to the
temperature of the air to account for heat used against frost, or 10 °F to that of the water to account for a heat
exchanger. -/
def TablePositive (grid : ℚ → ℚ → ℚ → Perf) (l : Limits) : Prop :=
  ∀ setpoint air water, UsualSetpoint setpoint →
    l.airLo ≤ air * 9 / 5 + 32 → air * 9 / 5 + 32 ≤ l.airHi + 10 →
    l.waterLo ≤ water * 9 / 5 + 32 → water * 9 / 5 + 32 ≤ l.waterHi + 10 →
    0 < (grid setpoint air water).cop ∧ 0 < (grid setpoint air water).inputPower_W

/-- What Btwxt gives there is bounded. -/
def TableBounded (grid : ℚ → ℚ → ℚ → Perf) (l : Limits) : Prop :=
  ∃ top, ∀ setpoint air water, UsualSetpoint setpoint →
    l.airLo ≤ air * 9 / 5 + 32 → air * 9 / 5 + 32 ≤ l.airHi + 10 →
    l.waterLo ≤ water * 9 / 5 + 32 → water * 9 / 5 + 32 ≤ l.waterHi + 10 →
    |(grid setpoint air water).cop * (grid setpoint air water).inputPower_W| ≤ top

/-- A model with heat sources, of which none circulates water more than once. The others are central multi-pass systems
and the tank without heat source. -/
def OnePass (p : Preset) : Prop :=
  p.k ≠ 0 ∧ ∀ i c, (p.src i).cfg.kind = .condenser c → c.configuration = .external → c.isMultipass = false

end HPWH.Spec
