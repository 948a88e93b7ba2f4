import Verif.Model.Run
import Verif.Model.Settings

/-! # Standard tests: preparation, first-hour rating and the 24-hour test

Loops of the code without a bound take `limit`, the number of passes after which the model gives up with
`diverge`. The test data kept for reports (one record per minute) are all but the demand-response mode. -/

namespace HPWH

open _root_.HPWH.Units

/-- `FirstHourRating::Designation`, src/HPWH.hh:1098-1104. -/
inductive Designation
  | verySmall | low | medium | high
  deriving DecidableEq, Repr

/-- The choice at the end of `findFirstHourRating`, src/HPWH.cc:3793-3810. -/
def Designation.ofVolume (volume_L : ℚ) : Designation :=
  if volume_L < GAL_TO_L 18 then .verySmall
  else if volume_L < GAL_TO_L 51 then .low
  else if volume_L < GAL_TO_L 75 then .medium
  else .high

/-- `HPWH::Draw`, src/HPWH.hh:1230-1244. -/
structure Draw where
  startTime_min : ℚ
  volume_gal : ℚ
  flowRate_gal_per_min : ℚ
  deriving DecidableEq

/-- `HM_TO_MIN`, src/HPWH.hh:1645-1648. -/
def HM_TO_MIN (hours minutes : ℚ) : ℚ := minPerHr * hours + minutes

/-- `HPWH::drawPatterns`, src/HPWH.cc:90-143. -/
def drawPatterns : Designation → List Draw
  | .verySmall =>
    [⟨HM_TO_MIN 0 0, 2, 1⟩, ⟨HM_TO_MIN 1 0, 1, 1⟩, ⟨HM_TO_MIN 1 5, 1 / 2, 1⟩,
     ⟨HM_TO_MIN 1 10, 1 / 2, 1⟩, ⟨HM_TO_MIN 1 15, 1 / 2, 1⟩, ⟨HM_TO_MIN 8 0, 1, 1⟩,
     ⟨HM_TO_MIN 8 15, 2, 1⟩, ⟨HM_TO_MIN 9 0, 3 / 2, 1⟩, ⟨HM_TO_MIN 9 15, 1, 1⟩]
  | .low =>
    [⟨HM_TO_MIN 0 0, 15, 17 / 10⟩, ⟨HM_TO_MIN 0 30, 2, 1⟩, ⟨HM_TO_MIN 1 0, 1, 1⟩,
     ⟨HM_TO_MIN 10 30, 6, 17 / 10⟩, ⟨HM_TO_MIN 11 30, 4, 17 / 10⟩, ⟨HM_TO_MIN 12 0, 1, 1⟩,
     ⟨HM_TO_MIN 12 45, 1, 1⟩, ⟨HM_TO_MIN 12 50, 1, 1⟩, ⟨HM_TO_MIN 16 15, 2, 1⟩,
     ⟨HM_TO_MIN 16 45, 2, 17 / 10⟩, ⟨HM_TO_MIN 17 0, 3, 17 / 10⟩]
  | .medium =>
    [⟨HM_TO_MIN 0 0, 15, 17 / 10⟩, ⟨HM_TO_MIN 0 30, 2, 1⟩, ⟨HM_TO_MIN 1 40, 9, 17 / 10⟩,
     ⟨HM_TO_MIN 10 30, 9, 17 / 10⟩, ⟨HM_TO_MIN 11 30, 5, 17 / 10⟩, ⟨HM_TO_MIN 12 0, 1, 1⟩,
     ⟨HM_TO_MIN 12 45, 1, 1⟩, ⟨HM_TO_MIN 12 50, 1, 1⟩, ⟨HM_TO_MIN 16 0, 1, 1⟩,
     ⟨HM_TO_MIN 16 15, 2, 1⟩, ⟨HM_TO_MIN 16 45, 2, 17 / 10⟩, ⟨HM_TO_MIN 17 0, 7, 17 / 10⟩]
  | .high =>
    [⟨HM_TO_MIN 0 0, 27, 3⟩, ⟨HM_TO_MIN 0 30, 2, 1⟩, ⟨HM_TO_MIN 0 40, 1, 1⟩,
     ⟨HM_TO_MIN 1 40, 9, 17 / 10⟩, ⟨HM_TO_MIN 10 30, 15, 3⟩, ⟨HM_TO_MIN 11 30, 5, 17 / 10⟩,
     ⟨HM_TO_MIN 12 0, 1, 1⟩, ⟨HM_TO_MIN 12 45, 1, 1⟩, ⟨HM_TO_MIN 12 50, 1, 1⟩,
     ⟨HM_TO_MIN 16 0, 2, 1⟩, ⟨HM_TO_MIN 16 15, 2, 1⟩, ⟨HM_TO_MIN 16 30, 2, 17 / 10⟩,
     ⟨HM_TO_MIN 16 45, 2, 17 / 10⟩, ⟨HM_TO_MIN 17 0, 14, 3⟩]

/-- `HPWH::TestConfiguration`, src/HPWH.hh:1202-1207. -/
structure TestConditions where
  ambientT : ℚ
  inletT : ℚ
  externalT : ℚ

/-- `HPWH::testConfiguration_UEF`, src/HPWH.cc:78. -/
def testConditionsUEF : TestConditions := ⟨F_TO_C (135 / 2), F_TO_C 58, F_TO_C (135 / 2)⟩

/-- `HPWH::testSetpointT_C`, src/HPWH.cc:82. -/
def testSetpoint : ℚ := F_TO_C 125

namespace Sim

variable {n k : ℕ}

/-- The call of `runOneStep` all tests make: no second inlet, no extra heat, e.g. src/HPWH.cc:3632-3639. -/
def testStep (m : Libm) (fuel : ℕ) (c : TestConditions) (dr : DR) (s : Sim n k) (draw_L : ℚ) :
    Res (Sim n k) :=
  runOneStep m fuel (s.setInletT c.inletT) ⟨draw_L, c.ambientT, c.externalT, dr, 0, c.inletT, []⟩

/-- `DR_ALLOW`, src/HPWH.hh:112. -/
def drAllow : DR := ⟨false, false, false, false⟩
/-- `DR_LOC`, src/HPWH.hh:113. -/
def drLockCompressor : DR := ⟨true, false, false, false⟩

/-- The flow of the preparation and the first-hour rating per minute (L), src/HPWH.cc:3578-3580. -/
def testFlow (s : Sim n k) : ℚ :=
  if s.tank.volume_L < GAL_TO_L 20 then GAL_TO_L (3 / 2) else GAL_TO_L 3

/-- The draw of one minute, limited to the tank's volume, src/HPWH.cc:3626-3630. -/
def limitDraw (s : Sim n k) (flow : ℚ) (isDrawing : Bool) : ℚ :=
  let v := if isDrawing then flow * 1 else 0
  if v > s.tank.volume_L then s.tank.volume_L else v

/-- Setpoint of the tests or the largest one possible, src/HPWH.cc:3659-3670, 3833-3845. -/
def applyTestSetpoint (s : Sim n k) : Res (Sim n k) :=
  if s.newSetpointPossible testSetpoint then s.setSetpoint testSetpoint
  else if s.newSetpointPossible s.maxAllowedSetpoint then s.setSetpoint s.maxAllowedSetpoint
  else .ok s

/-! ## Preparation -/

/-- The three phases (`step`) of `prepareForTest`. -/
inductive PrepPhase
  | waitOff | drawing | recovering
  deriving DecidableEq

/-- The `switch` of `prepareForTest`, src/HPWH.cc:3592-3623: phase, drawing and done. -/
def prepNext (isHeating : Bool) : PrepPhase → Bool → PrepPhase × Bool × Bool
  | .waitOff, d => if !isHeating then (.drawing, true, false) else (.waitOff, d, false)
  | .drawing, d => if isHeating then (.recovering, false, false) else (.drawing, d, false)
  | .recovering, d => if !isHeating then (.recovering, false, true) else (.recovering, d, false)

/-- The loop of `prepareForTest`, src/HPWH.cc:3590-3640. -/
def prepLoop (m : Libm) (fuel : ℕ) (c : TestConditions) (flow : ℚ) :
    (limit : ℕ) → Sim n k → PrepPhase → Bool → Res (Sim n k)
  | 0, _, _, _ => .error .diverge
  | limit + 1, s, phase, isDrawing =>
    let r := prepNext s.isHeating phase isDrawing
    (testStep m fuel c drAllow s (s.limitDraw flow r.2.1)) >>= fun s1 =>
      if r.2.2 then .ok s1 else prepLoop m fuel c flow limit s1 r.1 r.2.1

/-- `HPWH::prepareForTest`, src/HPWH.cc:3575-3641. -/
def prepareForTest (m : Libm) (fuel limit : ℕ) (c : TestConditions) (s : Sim n k) : Res (Sim n k) :=
  prepLoop m fuel c s.testFlow limit s .waitOff false

/-- `Tank::getAverageNodeT_C`, src/Tank.cc:231-239. -/
def averageT (s : Sim n k) : ℚ := (∑ i, s.tank.nodeTs i) / (n + 1)

/-! ## First-hour rating -/

/-- The three phases (`step`) of `findFirstHourRating`. -/
inductive RatingPhase
  | drawing | waitHeat | heating
  deriving DecidableEq

/-- The variables of the loop of `findFirstHourRating`, src/HPWH.cc:3672-3704. -/
structure RatingState where
  rating_L : ℚ
  draw_L : ℚ
  sumVolumeT : ℚ
  sumVolume : ℚ
  prevAverageOutletT : ℚ
  prevMinOutletT : ℚ
  maxTankT : ℚ
  maxOutletT : ℚ
  isDrawing : Bool
  dr : DR
  firstDraw : Bool
  phase : RatingPhase
  elapsed_min : ℕ
  deriving DecidableEq

/-- The end of a draw within the first hour, src/HPWH.cc:3747-3758. -/
def RatingState.endDraw (r : RatingState) (average outletT tankT : ℚ) : RatingState :=
  { r with
    rating_L := r.rating_L + r.draw_L
    draw_L := 0
    isDrawing := false
    dr := drAllow
    maxTankT := tankT
    maxOutletT := outletT
    prevAverageOutletT := average
    prevMinOutletT := outletT
    phase := .waitHeat }

/-- The last draw counts in proportion, src/HPWH.cc:3734-3744. The quotient is NaN or infinite if its
denominator is zero. -/
def RatingState.lastDraw (r : RatingState) (average : ℚ) : Res ℚ :=
  if r.firstDraw then .ok (r.rating_L + 1 * r.draw_L)
  else if r.prevAverageOutletT - r.prevMinOutletT = 0 then .error .nan
  else .ok (r.rating_L +
    (average - r.prevMinOutletT) / (r.prevAverageOutletT - r.prevMinOutletT) * r.draw_L)

/-- One pass of the `switch` of `findFirstHourRating`, src/HPWH.cc:3722-3783, after a step of the
simulation that drew `v` litres: the final rating, or the state to go on with. -/
def RatingState.next (r : RatingState) (v outletT tankT : ℚ) (isHeating : Bool) :
    Res (ℚ ⊕ RatingState) :=
  match r.phase with
  | .drawing =>
    let r1 := { r with
      sumVolume := r.sumVolume + v
      sumVolumeT := r.sumVolumeT + v * outletT
      maxOutletT := max outletT r.maxOutletT }
    if outletT < r1.maxOutletT - dF_TO_dC 15 then
      if r1.sumVolume = 0 then .error .nan
      else if r.elapsed_min ≥ 60 then
        (r1.lastDraw (r1.sumVolumeT / r1.sumVolume)).map Sum.inl
      else .ok (.inr (r1.endDraw (r1.sumVolumeT / r1.sumVolume) outletT tankT))
    else .ok (.inr r1)
  | .waitHeat => .ok (.inr (if isHeating then { r with phase := .heating } else r))
  | .heating =>
    if tankT > r.maxTankT ∧ isHeating ∧ r.elapsed_min < 60 then
      .ok (.inr { r with maxTankT := max tankT r.maxTankT })
    else
      .ok (.inr { r with
        firstDraw := false, isDrawing := true, draw_L := 0, dr := drLockCompressor, phase := .drawing })

/-- The loop of `findFirstHourRating`, src/HPWH.cc:3705-3788. -/
def ratingLoop (m : Libm) (fuel : ℕ) (c : TestConditions) (flow : ℚ) :
    (limit : ℕ) → Sim n k → RatingState → Res (Sim n k × ℚ)
  | 0, _, _ => .error .diverge
  | limit + 1, s, r =>
    let v := s.limitDraw flow r.isDrawing
    (testStep m fuel c r.dr s v) >>= fun s1 =>
      (r.next v s1.tank.outletT s1.averageT s1.isHeating) >>= fun x =>
        match x with
        | .inl rating => .ok (s1, rating)
        | .inr r1 => ratingLoop m fuel c flow limit s1
            { r1 with draw_L := r1.draw_L + v, elapsed_min := r1.elapsed_min + 1 }

/-- `HPWH::findFirstHourRating`, src/HPWH.cc:3648-3812: simulator, volume and designation. -/
def findFirstHourRating (m : Libm) (fuel limit : ℕ) (s : Sim n k) :
    Res (Sim n k × ℚ × Designation) := do
  let s1 ← s.applyTestSetpoint
  let s2 ← prepareForTest m fuel limit testConditionsUEF s1
  let r ← ratingLoop m fuel testConditionsUEF s.testFlow limit s2
    { rating_L := 0, draw_L := 0, sumVolumeT := 0, sumVolume := 0, prevAverageOutletT := 0
      prevMinOutletT := 0, maxTankT := s1.averageT, maxOutletT := 0, isDrawing := true
      dr := drLockCompressor, firstDraw := true, phase := .drawing, elapsed_min := 0 }
  return (r.1, r.2, Designation.ofVolume r.2)

/-! ## The 24-hour test -/

/-- The variables that schedule the draws, src/HPWH.cc:3929-3950. -/
structure Schedule where
  todo : List Draw
  step_L : ℚ
  remaining_L : ℚ
  ready : Bool
  isDrawing : Bool
  deriving DecidableEq

/-- Start of a draw, src/HPWH.cc:3959-3977, in a tank of `volume` litres at `time` minutes. -/
def Schedule.start (volume time : ℚ) (q : Schedule) : Schedule :=
  if q.ready then
    match q.todo with
    | [] => q
    | d :: ds =>
      if time ≥ d.startTime_min then
        { todo := ds
          step_L :=
            if GAL_TO_L d.flowRate_gal_per_min * 1 > volume then volume
            else GAL_TO_L d.flowRate_gal_per_min * 1
          remaining_L := GAL_TO_L d.volume_gal
          ready := false
          isDrawing := true }
      else q
  else q

/-- The volume of this minute, src/HPWH.cc:3979-3999. -/
def Schedule.limit (q : Schedule) : Schedule :=
  if q.isDrawing then
    if q.step_L ≥ q.remaining_L then
      { q with step_L := q.remaining_L, remaining_L := 0, isDrawing := false }
    else { q with remaining_L := q.remaining_L - q.step_L }
  else { q with remaining_L := 0, step_L := 0, ready := true }

/-- One minute of the schedule, src/HPWH.cc:3959-3999. -/
def Schedule.tick (volume time : ℚ) (q : Schedule) : Schedule := (q.start volume time).limit

/-- The schedule at the beginning of the test, src/HPWH.cc:3929-3950. -/
def Schedule.init (pattern : List Draw) : Schedule := ⟨pattern, 0, 0, true, false⟩

/-- One record of the test data (`TestData`, src/HPWH.hh:1117-1130, without the demand-response mode,
which nothing reads). -/
structure TestRecord (k : ℕ) where
  time_min : ℚ
  inletT : ℚ
  draw_L : ℚ
  outletT : ℚ
  input_kWh : Fin k → ℚ
  output_kWh : Fin k → ℚ
  ambientT : ℚ
  setpointT : ℚ
  thermocoupleT : Fin 6 → ℚ

/-- The six thermocouples of a record, src/HPWH.cc:3887-3891, 4025-4029. The call does not fail for these
arguments (`C21_thermocouple_value`). -/
def thermocouples (s : Sim n k) (j : Fin 6) : ℚ :=
  match s.tank.nthSimTcouple ((j : ℕ) + 1) 6 with
  | .ok x => x
  | .error _ => 0

/-- The sums of the loop of the 24-hour test over the whole day, src/HPWH.cc:3911-3926, 3944-3945. -/
structure DaySums where
  outletVolumeT : ℚ
  inletVolumeT : ℚ
  delivered_kJ : ℚ
  removed_L : ℚ
  used_kJ : ℚ
  hasHeated : Bool
  noDraw_min : ℕ
  noDrawAmbientT : ℚ
  deriving DecidableEq

/-- Update of the sums, src/HPWH.cc:3996-3997, 4034-4059. No fossil fuel is used. -/
def DaySums.add (a : DaySums) (s : Sim n k) (c : TestConditions) (drew : Bool) (v : ℚ) : DaySums where
  outletVolumeT := a.outletVolumeT + v * s.tank.outletT
  inletVolumeT := a.inletVolumeT + v * c.inletT
  delivered_kJ := a.delivered_kJ + cpWater * rhoWater * v * (s.tank.outletT - c.inletT)
  removed_L := a.removed_L + v
  used_kJ := a.used_kJ + (0 + ∑ i, KWH_TO_KJ (s.st i).energyInput_kWh)
  hasHeated := a.hasHeated || s.isHeating
  noDraw_min := if drew then a.noDraw_min else a.noDraw_min + 1
  noDrawAmbientT := if drew then a.noDrawAmbientT else a.noDrawAmbientT + 1 * c.ambientT

/-- First recovery and standby period, src/HPWH.cc:3905-3909, 3915-3918, 3931-3942. -/
structure DayPhases where
  prevTankT : ℚ
  firstRecovery : Bool
  standby : Bool
  standbyEnded : Bool
  recoveryEnd_min : ℚ
  recoveryDrawn_L : ℚ
  recoveryInletVolumeT : ℚ
  recoveryOutletVolumeT : ℚ
  recoveryUsed_kJ : ℚ
  recoveryStored_kJ : ℚ
  recoveryDelivered_kJ : ℚ
  standbyStartT : ℚ
  standbyEndT : ℚ
  standbyStart_min : ℚ
  standbyEnd_min : ℚ
  standbyUsed_kJ : ℚ
  standbyTankT : ℚ
  standbyAmbientT : ℚ
  deriving DecidableEq

/-- During the first recovery, src/HPWH.cc:4061-4083. -/
def DayPhases.recover (p : DayPhases) (s : Sim n k) (c : TestConditions) (initialT time v used : ℚ)
    (isDrawing hasHeated : Bool) : DayPhases :=
  let p1 := { p with
    recoveryDrawn_L := p.recoveryDrawn_L + v
    recoveryInletVolumeT := p.recoveryInletVolumeT + v * c.inletT
    recoveryOutletVolumeT := p.recoveryOutletVolumeT + v * s.tank.outletT
    recoveryUsed_kJ := p.recoveryUsed_kJ + used }
  if !isDrawing && (hasHeated && !s.isHeating) then
    { p1 with
      firstRecovery := false
      recoveryEnd_min := time
      recoveryStored_kJ :=
        cpWater * rhoWater * s.tank.volume_L * (p.prevTankT - initialT)
      recoveryDelivered_kJ :=
        cpWater * rhoWater * (p1.recoveryOutletVolumeT - p1.recoveryInletVolumeT) }
  else p1

/-- End of the standby period, src/HPWH.cc:4088-4091, 4097-4100. -/
def DayPhases.endStandby (p : DayPhases) (time : ℚ) : DayPhases :=
  { p with standby := false, standbyEnded := true, standbyEndT := p.prevTankT, standbyEnd_min := time - 1 }

/-- Phases after one minute, src/HPWH.cc:4061-4117. -/
def DayPhases.next (p : DayPhases) (s : Sim n k) (c : TestConditions) (initialT time v used : ℚ)
    (isDrawing hasHeated : Bool) : DayPhases :=
  let p1 :=
    if p.firstRecovery then p.recover s c initialT time v used isDrawing hasHeated
    else if p.standby then
      if isDrawing || s.isHeating then p.endStandby time
      else if time ≥ p.standbyStart_min + 8 * minPerHr then p.endStandby time
      else { p with
        standbyUsed_kJ := p.standbyUsed_kJ + used
        standbyTankT := p.standbyTankT + 1 * s.averageT
        standbyAmbientT := p.standbyAmbientT + 1 * c.ambientT }
    else if !p.standbyEnded && decide (time > p.recoveryEnd_min + 5) then
      { p with standby := true, standbyStartT := s.averageT, standbyStart_min := time }
    else p
  { p1 with prevTankT := s.averageT }

/-- The state of the loop over the minutes of the day. -/
structure Day (n k : ℕ) where
  sim : Sim n k
  schedule : Schedule
  sums : DaySums
  phases : DayPhases
  records : List (TestRecord k)

/-- One minute, src/HPWH.cc:3952-4118. (`inLastHour` is never set: no lock-out in the last hour.) -/
def Day.minute (m : Libm) (fuel : ℕ) (c : TestConditions) (initialT : ℚ) (t : ℕ) (d : Day n k) :
    Res (Day n k) :=
  let begun := d.schedule.start d.sim.tank.volume_L t
  let q := begun.limit
  (testStep m fuel c drAllow d.sim q.step_L) >>= fun s =>
    let used := 0 + ∑ i, KWH_TO_KJ (s.st i).energyInput_kWh
    let sums := d.sums.add s c begun.isDrawing q.step_L
    .ok
      { sim := s
        schedule := q
        sums := sums
        phases := d.phases.next s c initialT t q.step_L used q.isDrawing sums.hasHeated
        records := d.records ++ [⟨t, c.inletT, q.step_L, s.tank.outletT,
          fun i => (s.st i).energyInput_kWh, fun i => (s.st i).energyOutput_kWh, c.ambientT, s.setpoint,
          s.thermocouples⟩] }

/-- The loop over the minutes `t, t+1, …`, `count` of them, src/HPWH.cc:3952-4118. -/
def Day.loop (m : Libm) (fuel : ℕ) (c : TestConditions) (initialT : ℚ) :
    (t count : ℕ) → Day n k → Res (Day n k)
  | _, 0, d => .ok d
  | t, count + 1, d => (d.minute m fuel c initialT t) >>= Day.loop m fuel c initialT (t + 1) count

/-- Idling before the test, for an hour and until the heat is off, src/HPWH.cc:3855-3897. `pre` is
`preTime_min`. -/
def idleLoop (m : Libm) (fuel : ℕ) (c : TestConditions) :
    (limit pre : ℕ) → (heatersAreOn : Bool) → Sim n k → List (TestRecord k) →
      Res (Sim n k × ℕ × List (TestRecord k))
  | 0, _, _, _, _ => .error .diverge
  | limit + 1, pre, on, s, l =>
    if pre < 60 ∨ on then
      (testStep m fuel c drAllow s 0) >>= fun s1 =>
        idleLoop m fuel c limit (pre + 1) (decide (∃ i, (s1.st i).isOn = true)) s1
          (l ++ [⟨pre, c.inletT, 0, 0, fun i => (s1.st i).energyInput_kWh,
            fun i => (s1.st i).energyOutput_kWh, c.ambientT, s1.setpoint, s1.thermocouples⟩])
    else .ok (s, pre, l)

/-- `HPWH::TestSummary`, src/HPWH.hh:1152-1196. -/
structure TestSummary (k : ℕ) where
  designation : Designation
  qualifies : Bool
  recoveryEfficiency : ℚ
  standbyPeriodDuration_h : ℚ
  standbyHourlyLoss_kJperh : ℚ
  standbyLossCoefficient : ℚ
  noDrawTotalTime_h : ℚ
  noDrawAverageAmbientT : ℚ
  averageOutletT : ℚ
  averageInletT : ℚ
  removed_L : ℚ
  used_kJ : ℚ
  delivered_kJ : ℚ
  consumedHeating_kJ : ℚ
  waterHeating_kJ : ℚ
  standardWaterHeating_kJ : ℚ
  adjustedConsumed_kJ : ℚ
  modifiedConsumed_kJ : ℚ
  EF : ℚ
  annualConsumed_kJ : ℚ
  annualConsumedElectrical_kJ : ℚ
  records : List (TestRecord k)

/-- Standby figures, src/HPWH.cc:4155-4184: duration, hourly loss and loss coefficient. -/
def standbyFigures (p : DayPhases) (capacity efficiency : ℚ) : ℚ × ℚ × ℚ :=
  let minutes := p.standbyEnd_min - p.standbyStart_min - 1
  let duration := minutes / minPerHr
  if duration > 0 ∧ efficiency > 0 then
    let standard := capacity * (p.standbyEndT - p.standbyStartT) / efficiency
    let hourly := (p.standbyUsed_kJ - standard) / duration
    let dT := p.standbyTankT / minutes - p.standbyAmbientT / minutes
    (duration, hourly, if dT ≠ 0 then hourly / dT else 0)
  else (duration, 0, 0)

/-- The standby period ends at the latest with the test, src/HPWH.cc:4120-4125. -/
def DayPhases.close (p : DayPhases) : DayPhases :=
  if p.standbyEnded then p else
    { p with standbyEnded := true, standbyEnd_min := 24 * minPerHr, standbyEndT := p.prevTankT }

/-- Recovery efficiency, src/HPWH.cc:4143-4150. -/
def DayPhases.efficiency (p : DayPhases) : ℚ :=
  if p.recoveryUsed_kJ > 0 then (p.recoveryStored_kJ + p.recoveryDelivered_kJ) / p.recoveryUsed_kJ
  else 0

/-- Division by the recovery efficiency, or 0, src/HPWH.cc:4194-4221. -/
def perEfficiency (efficiency x : ℚ) : ℚ := if efficiency > 0 then x / efficiency else 0

/-- The summary, src/HPWH.cc:4120-4264, of a test with draws. -/
def summaryOf (designation : Designation) (initialT : ℚ) (d : Day n k) (records : List (TestRecord k)) :
    TestSummary k :=
  let p := d.phases.close
  let a := d.sums
  let capacity := cpWater * rhoWater * d.sim.tank.volume_L
  let removedCapacity := cpWater * rhoWater * a.removed_L
  let efficiency := p.efficiency
  let standby := standbyFigures p capacity efficiency
  let noDraw_h : ℚ := a.noDraw_min / minPerHr
  let noDrawT : ℚ := if a.noDraw_min > 0 then a.noDrawAmbientT / a.noDraw_min else 0
  let consumed := a.used_kJ - perEfficiency efficiency (capacity * (p.prevTankT - initialT))
  let water := perEfficiency efficiency a.delivered_kJ
  let standardDelivered := removedCapacity * (F_TO_C 125 - F_TO_C 50)
  let standardWater := perEfficiency efficiency standardDelivered
  let adjusted := consumed - (F_TO_C (135 / 2) - noDrawT) * standby.2.2 * noDraw_h
  let modified := adjusted + (standardWater - water)
  let EF := if modified > 0 then standardDelivered / modified else 0
  let annual := if EF > 0 then 365 * removedCapacity * F_TO_C 67 / EF else 0
  { designation := designation
    qualifies := a.hasHeated && !d.schedule.isDrawing
    recoveryEfficiency := efficiency
    standbyPeriodDuration_h := standby.1
    standbyHourlyLoss_kJperh := standby.2.1
    standbyLossCoefficient := standby.2.2
    noDrawTotalTime_h := noDraw_h
    noDrawAverageAmbientT := noDrawT
    averageOutletT := a.outletVolumeT / a.removed_L
    averageInletT := a.inletVolumeT / a.removed_L
    removed_L := a.removed_L
    used_kJ := a.used_kJ
    delivered_kJ := a.delivered_kJ
    consumedHeating_kJ := consumed
    waterHeating_kJ := water
    standardWaterHeating_kJ := standardWater
    adjustedConsumed_kJ := adjusted
    modifiedConsumed_kJ := modified
    EF := EF
    annualConsumed_kJ := annual
    annualConsumedElectrical_kJ :=
      if a.used_kJ > 0 then a.used_kJ / a.used_kJ * annual else 0
    records := records }

/-- The summary, src/HPWH.cc:4120-4264. Without any draw the average temperatures are NaN (nothing else
depends on them): the model reports `nan`. -/
def summarize (designation : Designation) (initialT : ℚ) (d : Day n k) (records : List (TestRecord k)) :
    Res (TestSummary k) :=
  if d.sums.removed_L = 0 then .error .nan else .ok (summaryOf designation initialT d records)

/-- The state before the first minute of the test, src/HPWH.cc:3905-3951. -/
def Day.init (designation : Designation) (s : Sim n k) (records : List (TestRecord k)) : Day n k where
  sim := s
  schedule := Schedule.init (drawPatterns designation)
  sums := ⟨0, 0, 0, 0, 0, false, 0, 0⟩
  phases :=
    { prevTankT := s.averageT, firstRecovery := true, standby := false, standbyEnded := false
      recoveryEnd_min := 0, recoveryDrawn_L := 0, recoveryInletVolumeT := 0
      recoveryOutletVolumeT := 0, recoveryUsed_kJ := 0, recoveryStored_kJ := 0
      recoveryDelivered_kJ := 0, standbyStartT := 0, standbyEndT := 0, standbyStart_min := 0
      standbyEnd_min := 0, standbyUsed_kJ := 0, standbyTankT := 0, standbyAmbientT := 0 }
  records := records

/-- `HPWH::run24hrTest`, src/HPWH.cc:3820-4265. -/
def run24hrTest (m : Libm) (fuel limit : ℕ) (c : TestConditions) (designation : Designation)
    (s : Sim n k) : Res (Sim n k × TestSummary k) := do
  let s1 ← s.applyTestSetpoint
  let s2 ← prepareForTest m fuel limit c s1
  let r ← idleLoop m fuel c limit 0 false s2 []
  let before := r.2.2.map fun x => { x with time_min := x.time_min - r.2.1 }
  let d ← Day.loop m fuel c r.1.averageT 0 1441 (Day.init designation r.1 before)
  let summary ← summarize designation r.1.averageT d d.records
  return (d.sim, summary)

end Sim

end HPWH
