import Verif.Model.Report
import Mathlib.Data.Rat.Floor

/-! # The command `run`: schedules, the control file and the loop over the minutes
(src/hpwh/run.cpp)

The texts of the files are taken as already split into words and numbers. -/

namespace HPWH

open _root_.HPWH.Units

variable {n k : ℕ}

/-! ## Schedules -/

/-- A schedule file, src/hpwh/run.cpp:545-572: the first line with a keyword and a value, the first word of
the second line (empty if there is none), and the pairs that follow. -/
structure ScheduleFile where
  keyword : String
  value : ℚ
  marker : String
  entries : List (ℤ × ℚ)

/-- `scheduleArray[j] = valTmp` for `count` minutes from `j`, src/hpwh/run.cpp:588-593. -/
def fillFrom (x : ℚ) : (j count : ℕ) → List ℚ → List ℚ
  | _, 0, a => a
  | j, count + 1, a => fillFrom x (j + 1) count (a.set j x)

/-- The loop over the pairs, src/hpwh/run.cpp:572-596, with the return value. Writing outside the array is
undefined. Simplified: no integer overflow in `60 * i`. -/
def writeEntries (hourly : Bool) : List (ℤ × ℚ) → List ℚ → Res (List ℚ × ℕ)
  | [], a => .ok (a, 0)
  | (i, x) :: es, a =>
    if i ≥ a.length then .ok (a, 1)
    else if hourly then
      if 0 ≤ i * 60 ∧ (i + 1) * 60 ≤ a.length then
        writeEntries hourly es (fillFrom x (i * 60).toNat 60 a)
      else .error .ub
    else if 0 ≤ i then writeEntries hourly es (a.set i.toNat x)
    else .error .ub

/-- `tolower(minORhr.at(0)) == 'h'`, src/hpwh/run.cpp:569. -/
def isHourly (marker : String) : Bool :=
  match marker.toList with
  | c :: _ => c.toLower == 'h'
  | [] => false

/-- `readSchedule`, src/hpwh/run.cpp:530-600, into an empty array; `none` is a file that cannot be opened. A
negative length is more than a vector can have. -/
def readSchedule (file : Option ScheduleFile) (minutes : ℤ) : Res (List ℚ × ℕ) :=
  match file with
  | none => .ok ([], 1)
  | some f =>
    if f.keyword ≠ "default" then .ok ([], 1)
    else if minutes < 0 then .error .error
    else if f.marker = "" then .ok (List.replicate minutes.toNat f.value, 0)
    else writeEntries (isHourly f.marker) f.entries (List.replicate minutes.toNat f.value)

/-- `allSchedules`, src/hpwh/run.cpp:127, 267-273. -/
structure Schedules where
  inletT : List ℚ
  draw : List ℚ
  ambientT : List ℚ
  evaporatorT : List ℚ
  dr : List ℚ
  setpoint : List ℚ
  soc : List ℚ
  deriving DecidableEq

/-- The files of a test. -/
structure ScheduleFiles where
  inletT : Option ScheduleFile
  draw : Option ScheduleFile
  ambientT : Option ScheduleFile
  evaporatorT : Option ScheduleFile
  dr : Option ScheduleFile
  setpoint : Option ScheduleFile
  soc : Option ScheduleFile

/-- A schedule that must be there, src/hpwh/run.cpp:277-286. -/
def requireSchedule (file : Option ScheduleFile) (minutes : ℤ) : Res (List ℚ) :=
  readSchedule file minutes >>= fun r => if r.2 ≠ 0 then .error .error else .ok r.1

/-- A schedule whose return value is ignored, src/hpwh/run.cpp:281, 287-290. -/
def optionalSchedule (file : Option ScheduleFile) (minutes : ℤ) : Res (List ℚ) :=
  readSchedule file minutes >>= fun r => .ok r.1

/-- src/hpwh/run.cpp:275-292. -/
def readSchedules (f : ScheduleFiles) (minutes : ℤ) : Res Schedules := do
  let inletT ← requireSchedule f.inletT minutes
  let draw ← requireSchedule f.draw minutes
  let ambientT ← requireSchedule f.ambientT minutes
  let evaporatorT ← requireSchedule f.evaporatorT minutes
  let dr ← requireSchedule f.dr minutes
  let setpoint ← optionalSchedule f.setpoint minutes
  let soc ← optionalSchedule f.soc minutes
  return ⟨inletT, draw, ambientT, evaporatorT, dr, setpoint, soc⟩

/-! ## The control file -/

/-- A line of `testInfo.txt`, src/hpwh/run.cpp:205-255. -/
inductive ControlLine
  | setpoint (x : ℚ)
  | length (i : ℤ)
  | inversionMixing (x : ℚ)
  | conduction (x : ℚ)
  | inletH (x : ℚ)
  | tankSize (x : ℚ)
  | totLimit (x : ℚ)
  | useSoC (i : ℤ)
  | initialTs (xs : List ℚ)
  | other (key : String)

/-- The variables set from it, src/hpwh/run.cpp:188-198. -/
structure Control where
  setpoint : ℚ
  minutes : ℤ
  mixing : Bool
  conduction : Bool
  inletH : ℚ
  tankSize : ℚ
  totLimit : ℚ
  useSoC : Bool
  initialTs : Option (List ℚ)

/-- src/hpwh/run.cpp:188-198. -/
def Control.initial : Control := ⟨0, 0, true, true, 0, 0, 0, false, none⟩

/-- src/hpwh/run.cpp:210-253. -/
def Control.read (c : Control) : ControlLine → Control
  | .setpoint x => { c with setpoint := x }
  | .length i => { c with minutes := i }
  | .inversionMixing x => { c with mixing := decide (x > 0) }
  | .conduction x => { c with conduction := decide (x > 0) }
  | .inletH x => { c with inletH := x }
  | .tankSize x => { c with tankSize := x }
  | .totLimit x => { c with totLimit := x }
  | .useSoC i => { c with useSoC := decide (i ≠ 0) }
  | .initialTs xs => { c with initialTs := some (c.initialTs.getD [] ++ xs) }
  | .other _ => c

/-- src/hpwh/run.cpp:202-262. -/
def readControl (lines : List ControlLine) : Res Control :=
  let c := lines.foldl Control.read Control.initial
  if c.minutes = 0 then .error .error else .ok c

/-! ## Preparation -/

/-- The library that interpolates in one dimension (`Btwxt::RegularGridInterpolator`, not in /repo): from the
axis and the values to a function, or an exception. -/
abbrev Interpolator := List ℚ → List ℚ → Res (ℚ → ℚ)

/-- The axis of `Tank::setProfileTs_C`, src/Tank.cc:201-203. -/
def profileAxis (count : ℕ) : List ℚ := (List.range count).map fun i : ℕ => ((i : ℚ) + 1 / 2) / count

/-- `Tank::setProfileTs_C`, src/Tank.cc:198-214. -/
def Tank.setProfileTs (rgi : Interpolator) (t : Tank n) (xs : List ℚ) : Res (Tank n) :=
  rgi (profileAxis xs.length) xs >>= fun f =>
    .ok { t with nodeTs := fun i => f (((i : ℚ) + 1 / 2) / ((n : ℚ) + 1)) }

namespace Sim

/-- What `run` is given besides the files of the test: the parameters of `pow` and the libraries, the air
temperature of the command line (`-1000` if none), the lines of the file of measured temperatures, and
`getModel()`. -/
structure RunArgs where
  pow : ℚ → ℚ → ℚ
  stod : List Char → Res ℚ
  rgi : Interpolator
  airTemp : ℚ
  measured : Option (List (List Char))
  model : ℤ

/-- `if (hpwh.isNewSetpointPossible(x, …)) hpwh.setSetpoint(x)`, src/hpwh/run.cpp:305-320. -/
def trySetpoint (s : Sim n k) (x : ℚ) : Sim n k :=
  if s.newSetpointPossible x then { s with setpoint := x } else s

/-- The temperatures at the start, src/hpwh/run.cpp:321-326. -/
def initialTank (a : RunArgs) (c : Control) (s : Sim n k) : Res (Sim n k) :=
  match c.initialTs with
  | some xs => s.tank.setProfileTs a.rgi xs >>= fun t => .ok { s with tank := t }
  | none =>
    match a.measured with
    | some file => s.setTankFromMeasured a.stod file 0
    | none => .ok s.resetTankToSetpoint

/-- The settings made before the loop, src/hpwh/run.cpp:150-178, 294-347. -/
def prepareRun (a : RunArgs) (c : Control) (sch : Schedules) (s : Sim n k) : Res (Sim n k) := do
  let s ← s.setMaxTempDepression .C 4
  let s : Sim n k := { s with cfg := { s.cfg with doTempDepression := decide (a.airTemp > 0) } }
  let s : Sim n k := if c.mixing then s else { s with tank := { s.tank with doInversionMixing := false } }
  let s : Sim n k := if c.conduction then s else { s with tank := { s.tank with doConduction := false } }
  let s ← (if c.setpoint > 0 then
      initialTank a c (s.trySetpoint (match sch.setpoint with | [] => c.setpoint | x :: _ => x))
    else .ok s)
  let s ← (if c.inletH > 0 then s.setInletByFraction c.inletH else .ok s)
  let s ← (if c.tankSize > 0 then s.setTankSize a.pow .GAL c.tankSize false else .ok s)
  let s ← (if c.totLimit > 0 then s.setTimerLimitTOT c.totLimit else .ok s)
  if c.useSoC then s.switchToSoC .C 1 (1 / 20) (F_TO_C 110) true (F_TO_C 65) else .ok s

/-! ## The loop -/

/-- Access to a schedule. -/
def scheduleAt (l : List ℚ) (i : ℕ) : Res ℚ :=
  match l[i]? with
  | some x => .ok x
  | none => .error .ub

/-- `static_cast<HPWH::DRMODES>(int(x))`, src/hpwh/run.cpp:393: the number and its bits
(src/HPWH.hh:112-123). A number that needs more than four bits is outside the enumeration: undefined. -/
def drMode (x : ℚ) : Res (ℤ × DR) :=
  let d : ℤ := if 0 ≤ x then ⌊x⌋ else ⌈x⌉
  if 0 ≤ d ∧ d < 16 then
    .ok (d, ⟨decide (d % 2 = 1), decide (d / 2 % 2 = 1), decide (d / 4 % 2 = 1), decide (d / 8 % 2 = 1)⟩)
  else .error .ub

/-- The values of one minute that are passed to `runOneStep`. -/
structure MinuteInput where
  inletT : ℚ
  draw_L : ℚ
  airT : ℚ
  evaporatorT : ℚ
  drCode : ℤ
  dr : DR

/-- src/hpwh/run.cpp:420-427: all water comes through the second inlet. -/
def MinuteInput.step (u : MinuteInput) : StepInput where
  draw_L := u.draw_L
  tankAmbient := u.airT
  sourceAmbient := u.evaporatorT
  dr := u.dr
  inletVol2_L := u.draw_L
  inletT2 := u.inletT
  extraHeat_W := []

/-- The change of the draw in long tests of large compressors, src/hpwh/run.cpp:407-417. Division by zero
gives NaN or infinity. -/
def mixDown (a : RunArgs) (minutes : ℤ) (s : Sim n k) (inletT draw : ℚ) : Res ℚ :=
  if a.model ≥ 210 ∧ minutes > 500000 then
    if s.setpoint ≤ 125 then
      let d := C_TO_F (s.tank.nodeTs (Fin.last n)) - inletT
      if d = 0 then .error .nan else .ok (draw * ((125 - inletT) / d))
    else .ok draw
  else .ok draw

/-- Changes of the settings in minute `i`, src/hpwh/run.cpp:395-405. -/
def minuteSettings (c : Control) (sch : Schedules) (i : ℕ) (s : Sim n k) : Res (Sim n k) := do
  let s ← (if sch.setpoint ≠ [] ∧ s.cfg.setpointFixed = false then
      scheduleAt sch.setpoint i >>= fun x => s.setSetpoint x
    else .ok s)
  if c.useSoC then scheduleAt sch.soc i >>= fun x => s.setTargetSoC x else .ok s

/-- The inputs of minute `i`, src/hpwh/run.cpp:381-393, 407-427. -/
def minuteInput (a : RunArgs) (c : Control) (sch : Schedules) (i : ℕ) (s : Sim n k) : Res MinuteInput := do
  let airT ← (if a.airTemp > 0 then .ok (F_TO_C a.airTemp) else scheduleAt sch.ambientT i)
  let code ← scheduleAt sch.dr i
  let d ← drMode code
  let inletT ← scheduleAt sch.inletT i
  let draw ← scheduleAt sch.draw i
  let gallons ← mixDown a c.minutes s inletT draw
  let evaporatorT ← scheduleAt sch.evaporatorT i
  return ⟨inletT, GAL_TO_L gallons, airT, evaporatorT, d.1, d.2⟩

/-- One minute, src/hpwh/run.cpp:380-427. Simplified: the settings are made before the schedules of ambient
temperature and demand response are read, which only matters for which error comes first. -/
def runMinute (m : Libm) (fuel : ℕ) (a : RunArgs) (c : Control) (sch : Schedules) (i : ℕ) (s : Sim n k) :
    Res (MinuteInput × Sim n k) := do
  let s1 ← s.minuteSettings c sch i
  let u ← minuteInput a c sch i s1
  let s2 ← runOneStep m fuel (s1.setInletT u.inletT) u.step
  return (u, s2)

/-- The checks that end the program, src/hpwh/run.cpp:429-446. -/
def minuteChecks (u : MinuteInput) (heatBefore : ℚ) (s : Sim n k) : Bool :=
  s.isEnergyBalanced u.draw_L u.inletT 0 0 heatBefore (1 / 1000000) &&
    decide (∀ j, ¬(s.st j).runtime_min > 1)

/-- Output and sums, src/hpwh/run.cpp:137-138, 198. The arrays have three elements. -/
structure RunOutput (k : ℕ) where
  lines : List Line
  cumIn : Fin k → ℚ
  cumOut : Fin k → ℚ
  minuteOfDay : ℕ

/-- src/hpwh/run.cpp:465-491. -/
def runRecord (a : RunArgs) (i : ℕ) (u : MinuteInput) (s : Sim n k) : TestRecord k where
  time_min := i
  inletT := u.inletT
  draw_L := u.draw_L
  outletT := s.tank.outletT
  input_kWh := fun j => (s.st j).energyInput_kWh
  output_kWh := fun j => (s.st j).energyOutput_kWh
  ambientT := if a.airTemp > 0 then s.locationT else u.airT
  setpointT := s.setpoint
  thermocoupleT := s.thermocouples

/-- A line of the daily table, src/hpwh/run.cpp:505-510. -/
def dayLine (i : ℕ) (cumIn cumOut : Fin k → ℚ) : Line :=
  [.num 0 ((((i + 1) / 1440 : ℕ) : ℚ) - 1)] ++
    (List.finRange k).flatMap fun j => [.comma, .num 0 (cumIn j), .comma, .num 0 (cumOut j)]

/-- Recording, src/hpwh/run.cpp:462-521. With more than three heat sources the sums are written outside
their arrays. -/
def RunOutput.add (a : RunArgs) (c : Control) (target : Option ℚ) (i : ℕ) (u : MinuteInput) (s : Sim n k)
    (o : RunOutput k) : Res (RunOutput k) :=
  if c.minutes < 500000 then
    s.testRow ⟨u.drCode, target⟩ (runRecord a i u s) false >>= fun l => .ok { o with lines := o.lines ++ [l] }
  else if k > 3 then .error .ub
  else
    let cumIn := fun j => o.cumIn j + (s.st j).energyInput_kWh * 1000
    let cumOut := fun j => o.cumOut j + (s.st j).energyOutput_kWh * 1000
    if o.minuteOfDay ≥ 1439 then .ok ⟨o.lines ++ [dayLine i cumIn cumOut], fun _ => 0, fun _ => 0, 0⟩
    else .ok ⟨o.lines, cumIn, cumOut, o.minuteOfDay + 1⟩

/-- The target shown: the last one set, src/hpwh/run.cpp:401-405. -/
def shownTarget (c : Control) (sch : Schedules) (i : ℕ) : Option ℚ := if c.useSoC then sch.soc[i]? else none

/-- The loop over `count` minutes from `i`, src/hpwh/run.cpp:379-522. The first component is the minute in
which a check ended the program, if any. The check of the flow of a multi-pass compressor
(src/hpwh/run.cpp:447-461) only prints, but fails without a compressor. -/
def runMinutes (m : Libm) (fuel : ℕ) (a : RunArgs) (c : Control) (sch : Schedules) :
    (count i : ℕ) → Sim n k → RunOutput k → Res (Option ℕ × Sim n k × RunOutput k)
  | 0, _, s, o => .ok (none, s, o)
  | count + 1, i, s, o =>
    runMinute m fuel a c sch i s >>= fun r =>
      if minuteChecks r.1 s.tank.heatContent r.2 = false then .ok (some i, r.2, o)
      else r.2.isCompressorExternalMultipass >>= fun _ =>
        o.add a c (shownTarget c sch i) i r.1 r.2 >>= fun o1 =>
          runMinutes m fuel a c sch count (i + 1) r.2 o1

/-- The heading, src/hpwh/run.cpp:359-371. -/
def runHeading (c : Control) (s : Sim n k) : Res Line :=
  if c.minutes > 500000 then .ok ([.text "time (day)"] ++ sourceNames k)
  else s.testHeading false

/-- `run`, src/hpwh/run.cpp:110-527. -/
def runTest (m : Libm) (fuel : ℕ) (a : RunArgs) (control : List ControlLine) (files : ScheduleFiles)
    (s : Sim n k) : Res (Option ℕ × Sim n k × List Line) := do
  let c ← readControl control
  let sch ← readSchedules files c.minutes
  let s ← s.prepareRun a c sch
  let h ← s.runHeading c
  let r ← runMinutes m fuel a c sch c.minutes.toNat 0 s ⟨[h], fun _ => 0, fun _ => 0, 0⟩
  return (r.1, r.2.1, r.2.2.lines)

end Sim

end HPWH
