import Verif.Model.HeatSource

/-! # The simulation step (src/HPWH.cc:145-674, 2585-2814) -/

namespace HPWH

open _root_.HPWH.Units

/-- Demand-response flags, src/HPWH.hh (`DRMODES`): lock out compressor, lock out resistance, top off
once, top off with timer. -/
structure DR where
  loc : Bool
  lor : Bool
  too : Bool
  tot : Bool
  deriving DecidableEq

/-- Settings of `HPWH` that a step does not change. `hoursPerStep` and `secondsPerStep` are derived
from `minutesPerStep` (`setMinutesPerStep`, src/HPWH.cc:145-150). The indices are those computed by
`calcDerivedHeatingValues`, src/HPWH.cc:2709-2779; `-1` is `none`. -/
structure SimCfg (n k : ℕ) where
  src : Fin k → SourceCfg n k
  minutesPerStep : ℚ
  doTempDepression : Bool
  maxDepression : ℚ
  timerLimitTOT : ℚ
  compressorIndex : Option (Fin k)
  lowestElementIndex : Option (Fin k)
  vipIndex : Option (Fin k)
  setpointFixed : Bool
  isStorageTank : Bool
  canScale : Bool
  /-- `resistanceHeightMap`: `(index, position)` -/
  heightMap : List (Fin k × ℕ)

/-- src/HPWH.cc:148. -/
def SimCfg.secondsPerStep {n k : ℕ} (c : SimCfg n k) : ℚ := secPerMin * c.minutesPerStep
/-- src/HPWH.cc:149. -/
def SimCfg.hoursPerStep {n k : ℕ} (c : SimCfg n k) : ℚ := c.minutesPerStep / minPerHr

/-- State of `HPWH`, src/HPWH.hh:1448-1560. `prevDRstatus` is read by the tables only
(`Shown`, Model/Report.lean) and is omitted here. -/
structure Sim (n k : ℕ) extends Plant n where
  cfg : SimCfg n k
  st : Fin k → SourceState
  isHeating : Bool
  locationT : ℚ
  timerTOT : ℚ
  energyRemoved_kWh : ℚ
  standbyLosses_kWh : ℚ
  extraEnergyInput_kWh : ℚ

/-- The mathematical library functions the step calls. -/
structure Libm where
  exp : ℚ → ℚ
  log : ℚ → ℚ

/-- `HPWH::shouldDRLockOut`, src/HPWH.cc:2803-2814. -/
def shouldDRLockOut (kind : SourceKind) (dr : DR) : Bool :=
  match kind with
  | .condenser _ => dr.loc
  | .resistance _ => dr.lor

namespace Sim

variable {n k : ℕ}

/-- Change the state of one heat source. -/
def setSt (s : Sim n k) (i : Fin k) (x : SourceState) : Sim n k :=
  { s with st := Function.update s.st i x }

/-- `disengageHeatSource`, src/HPWHHeatSource.cc:262. -/
def disengage (s : Sim n k) (i : Fin k) : Sim n k := s.setSt i { s.st i with isOn := false }

/-- `engageHeatSource`, src/HPWHHeatSource.cc:250-260; the recursion into the companion stops when the
companion is already engaged. `fuel` bounds the recursion (`engage_ne_diverge`). -/
def engageAux (dr : DR) : (fuel : ℕ) → Sim n k → Fin k → Res (Sim n k)
  | 0, _, _ => .error .diverge
  | fuel + 1, s, i =>
    let s1 : Sim n k := { s.setSt i { s.st i with isOn := true } with isHeating := true }
    match (s.cfg.src i).companion with
    | none => .ok s1
    | some j => do
      let off ← (s.cfg.src j).shutsOff s1.toPlant
      if !off && !(s1.st j).isOn && !shouldDRLockOut (s.cfg.src j).kind dr then
        engageAux dr fuel s1 j
      else return s1

/-- `engageHeatSource`, src/HPWHHeatSource.cc:250-260. -/
def engage (dr : DR) (s : Sim n k) (i : Fin k) : Res (Sim n k) := engageAux dr (k + 1) s i

/-- `turnAllHeatSourcesOff`, src/HPWH.cc:2659-2666. -/
def turnAllOff (s : Sim n k) : Sim n k :=
  { s with st := fun i => { s.st i with isOn := false }, isHeating := false }

/-- `areAllHeatSourcesOff`, src/HPWH.cc:2668-2679. -/
def allOff (s : Sim n k) : Bool := decide (∀ i, (s.st i).isOn = false)

/-! ## Setpoint -/

/-- `isNewSetpointPossible`, src/HPWH.cc:890-985 (the verdict only; a temperature in °C). -/
def newSetpointPossible (s : Sim n k) (x : ℚ) : Bool :=
  if s.cfg.setpointFixed then decide (x = s.setpoint)
  else
    match s.cfg.lowestElementIndex with
    | some _ => decide (¬ x > 100 + tolT)
    | none =>
      match s.cfg.compressorIndex with
      | some j =>
        match (s.cfg.src j).kind with
        | .condenser c => decide (¬ x > c.maxSetpoint - c.hotSideOffset + tolT)
        | .resistance _ => true
      | none => s.cfg.isStorageTank

/-- `setSetpoint` in °C, src/HPWH.cc:822-849. -/
def setSetpoint (s : Sim n k) (x : ℚ) : Res (Sim n k) :=
  if s.newSetpointPossible x then .ok { s with setpoint := x } else .error .error

/-! ## Adding heat -/

/-- The virtual call `addHeat`: `Condenser::addHeat` (src/Condenser.cc:882-1046) or
`Resistance::addHeat` (src/Resistance.cc:84-101). -/
def addHeatKind (m : Libm) (fuel : ℕ) (src : SourceCfg n k) (p : Plant n) (st : SourceState)
    (amb minutes : ℚ) : Res (Plant n × SourceState) :=
  match src.kind with
  | .condenser c => condenserAddHeat m.exp fuel src c p st amb minutes
  | .resistance power => resistanceAddHeat src power p st minutes

/-- Run heat source `i`: `addHeat` on the simulator that owns it. -/
def addHeat (m : Libm) (fuel : ℕ) (s : Sim n k) (i : Fin k) (amb minutes : ℚ) :
    Res (Sim n k) := do
  let r ← addHeatKind m fuel (s.cfg.src i) s.toPlant (s.st i) amb minutes
  return { s with toPlant := r.1, st := Function.update s.st i r.2 }

/-- The sentinel `-273.15` of `addHeatParent`, src/HPWH.cc:651. -/
def noSetpoint : ℚ := -27315 / 100

/-- `addHeatParent`, src/HPWH.cc:642-674. -/
def addHeatParent (m : Libm) (fuel : ℕ) (s : Sim n k) (i : Fin k) (amb minutes : ℚ) :
    Res (Sim n k) :=
  match (s.cfg.src i).kind with
  | .resistance _ => s.addHeat m fuel i amb minutes
  | .condenser c =>
    if amb ≤ c.maxOutAirT ∧ s.setpoint ≥ c.maxOutT then do
      let s1 ← s.setSetpoint c.maxOutT
      let s2 ← s1.addHeat m fuel i amb minutes
      if s.setpoint > noSetpoint then s2.setSetpoint s.setpoint else return s2
    else s.addHeat m fuel i amb minutes

/-! ## Choosing heat sources -/

/-- `heatSources[i].isEngaged() && heatSources[i].shutsOff()`, src/HPWH.cc:333-334. -/
def engagedShutsOff (s : Sim n k) (i : Fin k) : Res Bool :=
  if (s.st i).isOn then (s.cfg.src i).shutsOff s.toPlant else .ok false

/-- An engaged heat source that shuts off hands over to its backup, src/HPWH.cc:333-343. -/
def handOver (dr : DR) (s : Sim n k) (i : Fin k) : Res (Sim n k) := do
  let off ← s.engagedShutsOff i
  if off then
    match (s.cfg.src i).backup with
    | none => return s.disengage i
    | some b =>
      let boff ← (s.cfg.src b).shutsOff s.toPlant
      if boff then return s.disengage i else engage dr (s.disengage i) b
  else return s

/-- Body of the choice loop, src/HPWH.cc:329-378; the flag is `break`. -/
def chooseBody (dr : DR) (s : Sim n k) (i : Fin k) : Res (Sim n k × Bool) :=
  if s.isHeating then do
    let s1 ← handOver dr s i
    if (s.cfg.src i).isVIP then
      let want ← (s.cfg.src i).shouldHeat s1.toPlant
      if want then
        if shouldDRLockOut (s.cfg.src i).kind dr then
          match s.cfg.compressorIndex with
          | some j =>
            let s2 ← engage dr s1 j
            return (s2, true)
          | none => return (s1, false)
        else
          let s2 ← engage dr s1.turnAllOff i
          return (s2, true)
      else return (s1, false)
    else return (s1, false)
  else do
    let want ← (s.cfg.src i).shouldHeat s.toPlant
    if want then
      let s1 ← engage dr s i
      return (s1, false)
    else return (s, false)

/-- The choice loop, src/HPWH.cc:326-379. -/
def chooseLoop (dr : DR) : List (Fin k) → Sim n k → Res (Sim n k)
  | [], s => .ok s
  | i :: is, s => do
    let r ← chooseBody dr s i
    if r.2 then return r.1 else chooseLoop dr is r.1

/-- Engage a heat source if the index is set (`compressorIndex > -1` and so on),
src/HPWH.cc:318-325. -/
def engageIf (dr : DR) (s : Sim n k) : Option (Fin k) → Res (Sim n k)
  | some j => engage dr s j
  | none => .ok s

/-- The top-off check, src/HPWH.cc:313-325. -/
def topOff (dr : DR) (s : Sim n k) : Res (Sim n k) :=
  if (dr.too || dr.tot) && decide (s.timerTOT = 0) then do
    let s1 ← engageIf dr s s.cfg.compressorIndex
    engageIf dr s1 s.cfg.lowestElementIndex
  else .ok s

/-! ## Running heat sources -/

/-- Lock or unlock heat source `i`, src/HPWH.cc:386-404. -/
def lockUnlock (dr : DR) (amb : ℚ) (s : Sim n k) (i : Fin k) : Res (Sim n k) :=
  if shouldDRLockOut (s.cfg.src i).kind dr then
    .ok (s.setSt i { s.st i with lockedOut := true })
  else match (s.cfg.src i).kind with
    | .condenser c => do
      let x ← toLockOrUnlock (s.cfg.src i) c (s.st i) s.toPlant amb
      return s.setSt i x
    | .resistance _ => .ok (s.setSt i { s.st i with lockedOut := false })

/-- Lock-outs for heat source `i`, src/HPWH.cc:386-408. -/
def applyLocks (dr : DR) (amb : ℚ) (s : Sim n k) (i : Fin k) : Res (Sim n k) := do
  let s1 ← lockUnlock dr amb s i
  if (s1.st i).lockedOut && (s.cfg.src i).backup.isNone then return s1.disengage i
  else return s1

/-- Whether the backup `b` may not stand in for the locked-out heat source `i`, src/HPWH.cc:417-434. -/
def backupBarred (dr : DR) (amb : ℚ) (s : Sim n k) (i b : Fin k) : Res (Sim n k × Bool) :=
  let lock0 := (s.st b).isOn || shouldDRLockOut (s.cfg.src b).kind dr
  match (s.cfg.src b).kind with
  | .condenser c => do
    let x ← toLockOrUnlock (s.cfg.src b) c (s.st b) s.toPlant amb
    return (s.setSt b x, lock0 || x.lockedOut)
  | .resistance _ =>
    match (s.cfg.src i).kind with
    | .resistance _ => .ok (s, lock0 || (s.st i).lockedOut)
    | .condenser _ => .ok (s, lock0)

/-- `isAResistance`. -/
def isResistance (s : Sim n k) (i : Fin k) : Bool :=
  match (s.cfg.src i).kind with
  | .resistance _ => true
  | .condenser _ => false

/-- `VIPIndex >= 0 && heatSources[VIPIndex]->isOn`, src/HPWH.cc:442. -/
def vipOn (s : Sim n k) : Bool :=
  match s.cfg.vipIndex with
  | some v => (s.st v).isOn
  | none => false

/-- Which heat source runs in place of the engaged heat source `i`, src/HPWH.cc:413-454: `i` itself,
its backup, or none (`continue`). -/
def pickSource (dr : DR) (amb : ℚ) (s : Sim n k) (i : Fin k) : Res (Sim n k × Option (Fin k)) :=
  if (s.st i).lockedOut then
    match (s.cfg.src i).backup with
    | none => .ok (s, some i)
    | some b => do
      let r ← backupBarred dr amb s i b
      if r.2 then return (r.1, none)
      else if r.1.vipOn && s.isResistance b then return (r.1, none)
      else return (r.1, some b)
  else .ok (s, some i)

/-- Whether the backup `b` is available to a maxed-out heat source, src/HPWH.cc:479-497. -/
def backupFree (dr : DR) (amb : ℚ) (s : Sim n k) (b : Fin k) : Res (Sim n k × Bool) :=
  let avail0 := !(s.st b).isOn && !shouldDRLockOut (s.cfg.src b).kind dr
  match (s.cfg.src b).kind with
  | .condenser c => do
    let x ← toLockOrUnlock (s.cfg.src b) c (s.st b) s.toPlant amb
    return (s.setSt b x, avail0 && !x.lockedOut)
  | .resistance _ => .ok (s, avail0)

/-- The maxed-out branch, src/HPWH.cc:477-507: run the backup of heat source `i` for the rest of the
step. `i` is a condenser here (`maxedOut` is false for resistance elements). -/
def runBackup (m : Libm) (fuel : ℕ) (dr : DR) (amb : ℚ) (s : Sim n k) (b : Fin k)
    (minutes : ℚ) : Res (Sim n k) := do
  let r ← backupFree dr amb s b
  if r.2 then
    let s1 ← engage dr r.1 b
    if minutes - (s1.st b).runtime_min ≥ 0 then
      s1.addHeatParent m fuel b amb (minutes - (s1.st b).runtime_min)
    else return s1
  else return r.1

/-- The heat source that follows `i` if it may come on, src/HPWH.cc:466-467. -/
def follower (s : Sim n k) (i : Fin k) : Res (Option (Fin k)) :=
  match (s.cfg.src i).followedBy with
  | none => .ok none
  | some f => do
    let off ← (s.cfg.src f).shutsOff s.toPlant
    return if off then none else some f

/-- What follows when heat source `i` (or its backup in its place) finished before the end of the
step, src/HPWH.cc:460-508; `minutes` is the time still left. -/
def afterEarly (m : Libm) (fuel : ℕ) (dr : DR) (amb : ℚ) (s : Sim n k) (i : Fin k)
    (minutes : ℚ) : Res (Sim n k) := do
  let s1 := s.disengage i
  let follow ← s1.follower i
  match follow with
  | some f => engage dr s1 f
  | none => do
    let maxed ← (s.cfg.src i).maxedOut s1.toPlant
    match maxed, (s.cfg.src i).backup with
    | true, some b => runBackup m fuel dr amb s1 b minutes
    | _, _ => return s1

/-- Run heat source `j` in its own right or as the backup of `i` and deal with an early finish,
src/HPWH.cc:456-508: the state and the time still left. -/
def runSource (m : Libm) (fuel : ℕ) (dr : DR) (amb : ℚ) (s : Sim n k) (i j : Fin k)
    (minutes : ℚ) : Res (Sim n k × ℚ) := do
  let s1 ← s.addHeatParent m fuel j amb minutes
  if (s1.st j).runtime_min < minutes then
    let s2 ← afterEarly m fuel dr amb s1 i (minutes - (s1.st j).runtime_min)
    return (s2, minutes - (s1.st j).runtime_min)
  else return (s1, minutes)

/-- Body of the heating loop, src/HPWH.cc:384-510; `minutes` is `minutesToRun`. -/
def heatBody (m : Libm) (fuel : ℕ) (dr : DR) (amb : ℚ) (s : Sim n k) (i : Fin k) (minutes : ℚ) :
    Res (Sim n k × ℚ) := do
  let s1 ← applyLocks dr amb s i
  if (s1.st i).isOn then
    let r ← pickSource dr amb s1 i
    match r.2 with
    | none => return (r.1, minutes)
    | some j => runSource m fuel dr amb r.1 i j minutes
  else return (s1, minutes)

/-- The heating loop, src/HPWH.cc:381-510. -/
def heatSrcLoop (m : Libm) (fuel : ℕ) (dr : DR) (amb : ℚ) :
    List (Fin k) → Sim n k → ℚ → Res (Sim n k)
  | [], s, _ => .ok s
  | i :: is, s, minutes => do
    let r ← heatBody m fuel dr amb s i minutes
    heatSrcLoop m fuel dr amb is r.1 r.2

/-- Demand response, choice and heating, src/HPWH.cc:303-511. -/
def normalControl (m : Libm) (fuel : ℕ) (dr : DR) (amb : ℚ) (s : Sim n k) : Res (Sim n k) :=
  if dr.loc && dr.lor then .ok s.turnAllOff
  else do
    let a ← topOff dr s
    let b ← chooseLoop dr (List.finRange k) a
    heatSrcLoop m fuel dr amb (List.finRange k) b s.cfg.minutesPerStep

/-- Demand response, choice and heating, src/HPWH.cc:303-515. -/
def control (m : Libm) (fuel : ℕ) (dr : DR) (amb : ℚ) (s : Sim n k) : Res (Sim n k) := do
  let s1 ← normalControl m fuel dr amb s
  return if s1.allOff then { s1 with isHeating := false } else s1

/-! ## Extra heat -/

/-- Entropy sum of `findShrinkageT_C`, src/HPWHUtils.cc:166-177, for the nodes `i, i+1, …`. A NaN
weight compares false and is skipped. -/
def entropyLoop (log : ℚ → ℚ) (d : WDist) (N : ℕ) : (i room : ℕ) → ℚ → ℚ
  | _, 0, e => e
  | i, room + 1, e =>
    match d.nodeShare N i with
    | .ok w => entropyLoop log d N (i + 1) room (if w > 0 then e - w * log w else e)
    | .error _ => entropyLoop log d N (i + 1) room e

/-- `findShrinkageT_C`, src/HPWHUtils.cc:162-182. -/
def findShrinkage (log : ℚ → ℚ) (d : WDist) (N : ℕ) : ℚ :=
  1 + (entropyLoop log d N 0 N 0 - log ((N : ℚ) / 12)) * 2

/-- `Tank::modifyHeatDistribution`, src/Tank.cc:773-795: the modified distribution is a list because
its length may differ from the number of nodes. -/
def modifyHeatDistribution (m : Libm) (T : Nodes n ℚ) (setpoint : ℚ) (w : List ℚ) :
    Res (List ℚ) :=
  let total := w.sum
  if total = 0 then .ok w
  else do
    let wd ← WDist.ofNodes (w.map (· / total))
    let shr := findShrinkage m.log wd (n + 1)
    let low := wd.findLowestNode (n + 1)
    if h : low < n + 1 then
      let d ← calcThermalDist m.exp shr ⟨low, h⟩ T setpoint
      return (List.ofFn d).map (· * total)
    else .error .ub

/-- The loop of `addExtraHeat`, src/HPWH.cc:2643-2652, over the nodes below `i` from the top down:
total heat rate (BTU/h) and tank. -/
def extraLoop (minutes : ℚ) (w : Nodes n ℚ) : (i : ℕ) → i ≤ n + 1 → ℚ → Tank n → ℚ × Tank n
  | 0, _, tot, t => (tot, t)
  | i + 1, h, tot, t =>
    if w ⟨i, by omega⟩ ≠ 0 then
      let q := KWH_TO_BTU (W_TO_KW (w ⟨i, by omega⟩))
      extraLoop minutes w i (by omega) (tot + q)
        (t.addExtraHeatAboveNode (BTU_TO_KJ (q * minutes / minPerHr)) ⟨i, by omega⟩)
    else extraLoop minutes w i (by omega) tot t

/-- `HPWH::addExtraHeat`, src/HPWH.cc:2632-2655. -/
def addExtraHeat (m : Libm) (s : Sim n k) (w : List ℚ) : Res (Sim n k) := do
  let mod ← modifyHeatDistribution m s.tank.nodeTs s.setpoint w
  let nodes ← resampleExtensive (m := n + 1) (fun _ => 0) (fun i : Fin mod.length => mod.get i)
  let r := extraLoop s.cfg.minutesPerStep nodes (n + 1) le_rfl 0 s.tank
  return { s with
    tank := r.2
    extraEnergyInput_kWh := BTU_TO_KWH (r.1 * s.cfg.minutesPerStep / minPerHr) }

/-- Extra heat if any was requested, src/HPWH.cc:516-521. -/
def extraStep (m : Libm) (s : Sim n k) (w : List ℚ) : Res (Sim n k) :=
  if w ≠ [] then do
    let a ← s.addExtraHeat m w
    let p ← a.toPlant.updateSoC
    return { a with toPlant := p }
  else .ok s

/-! ## The step -/

/-- Inputs of one step: `runOneStep`'s parameters. An absent or empty extra-heat vector is `[]`. -/
structure StepInput where
  draw_L : ℚ
  tankAmbient : ℚ
  sourceAmbient : ℚ
  dr : DR
  inletVol2_L : ℚ
  inletT2 : ℚ
  extraHeat_W : List ℚ

/-- `UNINITIALIZED_LOCATIONTEMP`, src/HPWH.cc:69. -/
def uninitialisedLocation : ℚ := -500

/-- Reset of the output variables, src/HPWH.cc:268-283. -/
def resetOutputs (s : Sim n k) : Sim n k :=
  { s with
    tank := { s.tank with outletT := 0, standbyLosses_kJ := 0 }
    condenserInlet := 0, condenserOutlet := 0, externalVolumeHeated := 0
    energyRemoved_kWh := 0, standbyLosses_kWh := 0, extraEnergyInput_kWh := 0
    st := fun i => { s.st i with runtime_min := 0, energyInput_kWh := 0, energyOutput_kWh := 0 } }

/-- Initialisation of the tracked location temperature, src/HPWH.cc:285-293. -/
def initLocation (s : Sim n k) (tankAmbient : ℚ) : Sim n k :=
  if s.cfg.doTempDepression ∧ s.locationT = uninitialisedLocation then
    { s with locationT := tankAmbient }
  else s

/-- Tracking of the depressed location temperature, src/HPWH.cc:523-552. -/
def trackLocation (s : Sim n k) (goal : ℚ) : Sim n k :=
  if s.cfg.doTempDepression then
    let ran := decide (∃ i, (s.st i).isOn = true ∧ (s.st i).lockedOut = false ∧
      (s.cfg.src i).depressesTemperature = true)
    let goal := if ran then goal - s.cfg.maxDepression else goal
    { s with locationT := s.locationT - (s.locationT - goal) * (1 - 9289 / 10000) }
  else s

/-- Standby power of the compressors and the summed outputs, src/HPWH.cc:554-571. -/
def settleOutputs (s : Sim n k) : Sim n k :=
  let st' : Fin k → SourceState := fun i =>
    match (s.cfg.src i).kind with
    | .condenser c => { s.st i with
        energyInput_kWh := (s.st i).energyInput_kWh +
          c.standbyPower_kW * ((s.cfg.minutesPerStep - (s.st i).runtime_min) / minPerHr) }
    | .resistance _ => s.st i
  { s with
    st := st'
    standbyLosses_kWh := KJ_TO_KWH s.tank.standbyLosses_kJ
    energyRemoved_kWh :=
      s.energyRemoved_kWh + ∑ i, ((st' i).energyOutput_kWh - (st' i).energyInput_kWh) }

/-- The top-off timer, src/HPWH.cc:575-587. -/
def updateTimer (s : Sim n k) (dr : DR) : Sim n k :=
  let t := s.timerTOT + s.cfg.minutesPerStep
  { s with timerTOT :=
      if dr.tot ∧ t ≥ s.cfg.timerLimitTOT then 0
      else if ¬ dr.too ∧ ¬ dr.tot then 0 else t }

/-- `HPWH::runOneStep`, src/HPWH.cc:253-588. `fuel` bounds the passes of external heating only. -/
def runOneStep (m : Libm) (fuel : ℕ) (s : Sim n k) (u : StepInput) : Res (Sim n k) :=
  if s.cfg.doTempDepression ∧ s.cfg.minutesPerStep ≠ 1 then .error .error
  else do
    let s0 := s.resetOutputs.initLocation u.tankAmbient
    let tankAmb := if s.cfg.doTempDepression then s0.locationT else u.tankAmbient
    let srcAmb := if s.cfg.doTempDepression then s0.locationT else u.sourceAmbient
    let tank ← s0.tank.updateNodes s.cfg.hoursPerStep s.cfg.secondsPerStep u.draw_L s0.inletT
      tankAmb u.inletVol2_L u.inletT2
    let p ← ({ s0.toPlant with tank := tank } : Plant n).updateSoC
    let s1 ← control m fuel u.dr srcAmb { s0 with toPlant := p }
    let s2 ← s1.extraStep m u.extraHeat_W
    return ((s2.trackLocation u.tankAmbient).settleOutputs).updateTimer u.dr

end Sim

end HPWH
