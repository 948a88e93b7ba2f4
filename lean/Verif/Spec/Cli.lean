import Verif.Model.Cli
import Verif.Spec.Report
import Verif.Spec.Profile

/-! # What the command `run` is for: schedules with exceptions, and the course of a test -/

namespace HPWH.Spec

open HPWH.Sim

variable {n k : ℕ}

/-- An exception concerns minute `t`: it names the minute, or the hour the minute belongs to. -/
def Concerns (hourly : Bool) (t : ℕ) (e : ℤ × ℚ) : Prop :=
  if hourly then e.1 = ((t / 60 : ℕ) : ℤ) else e.1 = (t : ℤ)

instance (hourly : Bool) (t : ℕ) : DecidablePred (Concerns hourly t) := fun e => by
  unfold Concerns; infer_instance

/-- The value a schedule with a default value and exceptions gives for minute `t`: that of the last
exception for the minute, otherwise the default. -/
def scheduled (hourly : Bool) (value : ℚ) (entries : List (ℤ × ℚ)) (t : ℕ) : ℚ :=
  ((entries.filter fun e => Concerns hourly t e).getLast?.map (·.2)).getD value

/-- All minutes the exception names are minutes of the test. -/
def WithinTest (hourly : Bool) (minutes : ℕ) (e : ℤ × ℚ) : Prop :=
  0 ≤ e.1 ∧ (if hourly then (e.1 + 1) * 60 else e.1 + 1) ≤ minutes

/-- The course of a test: `s i` is the simulator before minute `i`, `u i` what it is given in it; the
setpoint (unless fixed) and the target are set to the scheduled values. -/
structure Course (m : Libm) (fuel : ℕ) (a : RunArgs) (c : Control) (sch : Schedules) (N : ℕ)
    (s : ℕ → Sim n k) (u : ℕ → MinuteInput) : Prop where
  minute : ∀ i < N, ∃ s1 s2 : Sim n k,
    (if sch.setpoint ≠ [] ∧ (s i).cfg.setpointFixed = false then
      ∃ x, sch.setpoint[i]? = some x ∧ (s i).newSetpointPossible x = true ∧ s1 = { s i with setpoint := x }
      else s1 = s i) ∧
    (if c.useSoC then ∃ x, sch.soc[i]? = some x ∧ s1.setTargetSoC x = .ok s2 else s2 = s1) ∧
    runOneStep m fuel (s2.setInletT (u i).inletT)
      { draw_L := (u i).draw_L, tankAmbient := (u i).airT, sourceAmbient := (u i).evaporatorT, dr := (u i).dr,
        inletVol2_L := (u i).draw_L, inletT2 := (u i).inletT, extraHeat_W := [] } = .ok (s (i + 1))
  inletT : ∀ i < N, sch.inletT[i]? = some (u i).inletT
  evaporatorT : ∀ i < N, sch.evaporatorT[i]? = some (u i).evaporatorT
  airT : ∀ i < N, if a.airTemp > 0 then (u i).airT = (a.airTemp - 32) * 5 / 9
    else sch.ambientT[i]? = some (u i).airT
  draw : ∀ i < N, ¬(a.model ≥ 210 ∧ c.minutes > 500000) →
    ∃ x, sch.draw[i]? = some x ∧ (u i).draw_L = x * (378541 / 100000)
  dr : ∀ i < N, ∃ (x : ℚ) (d : ℤ), sch.dr[i]? = some x ∧ |x - d| < 1 ∧ |(d : ℚ)| ≤ |x| ∧ (u i).drCode = d ∧
    d = (if (u i).dr.loc then 1 else 0) + (if (u i).dr.lor then 2 else 0) + (if (u i).dr.too then 4 else 0) +
      (if (u i).dr.tot then 8 else 0)

/-- What is recorded of minute `i`, given input `u`, when the simulator is in state `s` after it. The
ambient temperature is that of the room if its cooling is followed. -/
def minuteRecord (a : RunArgs) (i : ℕ) (u : MinuteInput) (s : Sim n k) : TestRecord k where
  time_min := i
  inletT := u.inletT
  draw_L := u.draw_L
  outletT := s.tank.outletT
  input_kWh := fun j => (s.st j).energyInput_kWh
  output_kWh := fun j => (s.st j).energyOutput_kWh
  ambientT := if a.airTemp > 0 then s.locationT else u.airT
  setpointT := s.setpoint
  thermocoupleT := fun j => profileAverage s.tank.nodeTs ((j : ℚ) / 6) (((j : ℚ) + 1) / 6)

/-- The table of a long test: for day `d` the energies of the 1440 minutes of the day, in Wh; `s` are the
states after the minutes. -/
def dayTable (d : ℕ) (s : ℕ → Sim n k) : List (String × Option ℚ) :=
  [("time (day)", some (d : ℚ))] ++
  (List.finRange k).flatMap fun j =>
    [("h_src" ++ toString (j.val + 1) ++ "In (Wh)",
      some (∑ t ∈ Finset.range 1440, ((s (1440 * d + t + 1)).st j).energyInput_kWh * 1000)),
     ("h_src" ++ toString (j.val + 1) ++ "Out (Wh)",
      some (∑ t ∈ Finset.range 1440, ((s (1440 * d + t + 1)).st j).energyOutput_kWh * 1000))]

end HPWH.Spec
