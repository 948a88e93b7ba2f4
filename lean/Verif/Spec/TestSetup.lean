import Verif.Model.Cli
import Verif.Props.Ports

/-! # What the control file of a test asks for -/

namespace HPWH.Spec

open HPWH.Sim

variable {n k : ℕ}

/-- The value of the last line with the keyword, otherwise the default. -/
def lastValue {α : Type} (keyword : ControlLine → Option α) (default : α) (lines : List ControlLine) : α :=
  (lines.filterMap keyword).getLast?.getD default

/-- The values of the lines by keyword. -/
def theSetpoint : ControlLine → Option ℚ | .setpoint x => some x | _ => none
def theLength : ControlLine → Option ℤ | .length x => some x | _ => none
def theMixing : ControlLine → Option ℚ | .inversionMixing x => some x | _ => none
def theConduction : ControlLine → Option ℚ | .conduction x => some x | _ => none
def theInlet : ControlLine → Option ℚ | .inletH x => some x | _ => none
def theTankSize : ControlLine → Option ℚ | .tankSize x => some x | _ => none
def theLimit : ControlLine → Option ℚ | .totLimit x => some x | _ => none
def theSoC : ControlLine → Option ℤ | .useSoC x => some x | _ => none
def theProfile : ControlLine → Option (List ℚ) | .initialTs xs => some xs | _ => none

/-- The settings a control file stands for: of lines with the same keyword the last counts; without a line numbers are
0 (not given), mixing and conduction are on, and the state of charge is not used. The temperatures of all profile lines
together are one profile. -/
structure StandsFor (lines : List ControlLine) (c : Control) : Prop where
  setpoint : c.setpoint = lastValue theSetpoint 0 lines
  minutes : c.minutes = lastValue theLength 0 lines
  mixing : c.mixing = true ↔ 0 < lastValue theMixing 1 lines
  conduction : c.conduction = true ↔ 0 < lastValue theConduction 1 lines
  inlet : c.inletH = lastValue theInlet 0 lines
  tankSize : c.tankSize = lastValue theTankSize 0 lines
  limit : c.totLimit = lastValue theLimit 0 lines
  soc : c.useSoC = true ↔ lastValue theSoC 0 lines ≠ 0
  profile : c.initialTs = if lines.filterMap theProfile = [] then none else some (lines.filterMap theProfile).flatten

/-- The heights of the middles of `N` layers of the same height, as fractions of the tank. -/
def middles (N : ℕ) : List ℚ := (List.range N).map fun i : ℕ => (2 * (i : ℚ) + 1) / (2 * N)

/-- The heater as the control file wants it at the start of the test, compared to the one given: everything that is not
named stays as it is. -/
structure SetUp (a : RunArgs) (c : Control) (sch : Schedules) (s s' : Sim n k) : Prop where
  depression : s'.cfg.maxDepression = 4 ∧ (s'.cfg.doTempDepression = true ↔ 0 < a.airTemp)
  mixing : s'.tank.doInversionMixing = (c.mixing && s.tank.doInversionMixing)
  conduction : s'.tank.doConduction = (c.conduction && s.tank.doConduction)
  setpoint : s'.setpoint =
    if 0 < c.setpoint ∧ s.newSetpointPossible (sch.setpoint.head?.getD c.setpoint) = true then
      sch.setpoint.head?.getD c.setpoint else s.setpoint
  kept : ¬ 0 < c.setpoint → s'.tank.nodeTs = s.tank.nodeTs
  filled : 0 < c.setpoint → c.initialTs = none → a.measured = none ∧ ∀ i, s'.tank.nodeTs i = s'.setpoint
  profile : 0 < c.setpoint → ∀ xs, c.initialTs = some xs → ∃ f, a.rgi (middles xs.length) xs = .ok f ∧
    ∀ i : Fin (n + 1), s'.tank.nodeTs i = f ((2 * (i : ℚ) + 1) / (2 * (n + 1)))
  inlet : if 0 < c.inletH then c.inletH ≤ 1 ∧ NodeAt (n + 1) c.inletH s'.tank.inletHeight
    else s'.tank.inletHeight = s.tank.inletHeight
  volume : if 0 < c.tankSize then s.tank.volumeFixed = false ∧ s'.tank.volume_L = c.tankSize * (378541 / 100000)
    else s'.tank.volume_L = s.tank.volume_L
  limit : if 0 < c.totLimit then c.totLimit ≤ 1440 ∧ s'.cfg.timerLimitTOT = c.totLimit
    else s'.cfg.timerLimitTOT = s.cfg.timerLimitTOT
  soc : if c.useSoC then s'.socControl = some ⟨(110 - 32) * 5 / 9, true, (65 - 32) * 5 / 9⟩
    else s'.socControl = s.socControl ∧ s'.cfg.src = s.cfg.src
  rest : s'.tank.UA = s.tank.UA ∧ s'.tank.mixesOnDraw = s.tank.mixesOnDraw ∧
    s'.tank.mixBelowFractionOnDraw = s.tank.mixBelowFractionOnDraw ∧
    s'.tank.hasHeatExchanger = s.tank.hasHeatExchanger ∧ s'.tank.inlet2Height = s.tank.inlet2Height ∧
    (∀ i, (s'.cfg.src i).kind = (s.cfg.src i).kind ∧ (s'.cfg.src i).heatDist = (s.cfg.src i).heatDist) ∧
    s'.st = s.st ∧ s'.isHeating = s.isHeating ∧ s'.cfg.minutesPerStep = s.cfg.minutesPerStep ∧
    s'.cfg.compressorIndex = s.cfg.compressorIndex ∧ s'.cfg.setpointFixed = s.cfg.setpointFixed

end HPWH.Spec
