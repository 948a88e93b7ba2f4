import Verif.Model.Plant
import Mathlib.Data.Finset.Lattice.Fold

/-! # Heat sources (src/HPWHHeatSource.cc, src/Resistance.cc, src/Condenser.cc) -/

namespace HPWH

open _root_.HPWH.Units

variable {n k : ℕ}

/-- `HPWH::Performance`, src/HPWH.hh:1256-1261. -/
structure Perf where
  inputPower_W : ℚ
  outputPower_W : ℚ
  cop : ℚ
  deriving DecidableEq

/-- `Condenser::COIL_CONFIG`, src/Condenser.hh:57-62. -/
inductive Coil
  | submerged
  | wrapped
  | external
  deriving DecidableEq

/-- Settings of `HPWH::Condenser`, src/Condenser.hh:9-147. The performance function
`evaluatePerformance` is an arbitrary function of the setpoint, the air temperature and the water
temperature; the closures the library makes read the setpoint from the simulator
(src/Condenser.cc:1372-1379, src/HPWH.cc:4535) and are otherwise functions of their arguments. -/
structure CondCfg where
  configuration : Coil
  isMultipass : Bool
  mpFlowRate_LPS : ℚ
  maxSetpoint : ℚ
  hysteresis : ℚ
  doDefrost : Bool
  /-- `(T_F, derate_fraction)` -/
  defrostMap : List (ℚ × ℚ)
  resDefrostPower_kW : ℚ
  resDefrostLift_dF : ℚ
  resDefrostOnBelow_F : ℚ
  /-- `maxOut_at_LowT.outT_C` -/
  maxOutT : ℚ
  /-- `maxOut_at_LowT.airT_C` -/
  maxOutAirT : ℚ
  coldSideOffset : ℚ
  hotSideOffset : ℚ
  extraPumpPower_W : ℚ
  standbyPower_kW : ℚ
  inputPowerScale : ℚ
  copScale : ℚ
  evaluate : ℚ → ℚ → ℚ → Perf

/-- The two types of heat source (`typeOfHeatSource`), with their own settings; a resistance element
has a power (kW), src/Resistance.hh. -/
inductive SourceKind
  | resistance (power_kW : ℚ)
  | condenser (c : CondCfg)

/-- Settings of `HPWH::HeatSource`, src/HPWHHeatSource.hh:78-174. Pointers to other heat sources are
indices. Node heights are indices of tank nodes (`checkInputs`, src/HPWH.cc:2949-2963, requires this of
external heat sources; `findLowestNode` returns a node). -/
structure SourceCfg (n k : ℕ) where
  kind : SourceKind
  isVIP : Bool
  backup : Option (Fin k)
  companion : Option (Fin k)
  followedBy : Option (Fin k)
  heatDist : WDist
  shrinkageT : ℚ
  lowestNode : Fin (n + 1)
  turnOn : List Logic
  shutOff : List Logic
  standby : Option Logic
  minT : ℚ
  maxT : ℚ
  depressesTemperature : Bool
  airflowFreedom : ℚ
  externalInlet : Fin (n + 1)
  externalOutlet : Fin (n + 1)

/-- State and outputs of a heat source, src/HPWHHeatSource.hh:50,82-94. -/
structure SourceState where
  isOn : Bool
  lockedOut : Bool
  runtime_min : ℚ
  energyInput_kWh : ℚ
  energyOutput_kWh : ℚ
  deriving DecidableEq

/-! ## Control logic -/

/-- All logics are evaluated and any of them may hold, src/HPWHHeatSource.cc:321-330. -/
def anyHolds (p : Plant n) : List Logic → Res Bool
  | [] => .ok false
  | l :: ls => do
    let b ← l.holds p
    let r ← anyHolds p ls
    return b || r

namespace SourceCfg

/-- `HeatSource::shutsOff`, src/HPWHHeatSource.cc:311-333. -/
def shutsOff (s : SourceCfg n k) (p : Plant n) : Res Bool :=
  if p.tank.nodeTs 0 ≥ p.setpoint then .ok true else anyHolds p s.shutOff

/-- Does turn-on logic `l` ask for heat, src/HPWHHeatSource.cc:272-293? The standby condition is
tested with the comparison of `l`. -/
def wantsHeat (s : SourceCfg n k) (p : Plant n) (l : Logic) : Res Bool := do
  let average ← l.tankValue p
  if l.cmp.test average (l.comparisonValue p) then
    match l.checkStandby, s.standby with
    | true, some st => do
      let avg ← st.tankValue p
      return l.cmp.test avg (st.comparisonValue p)
    | _, _ => return true
  else return false

/-- The loop of `shouldHeat`, src/HPWHHeatSource.cc:270-302. -/
def shouldHeatLoop (s : SourceCfg n k) (p : Plant n) : List Logic → Res Bool
  | [] => .ok false
  | l :: ls => do
    let b ← s.wantsHeat p l
    if b then return true else shouldHeatLoop s p ls

/-- `HeatSource::shouldHeat`, src/HPWHHeatSource.cc:264-309. -/
def shouldHeat (s : SourceCfg n k) (p : Plant n) : Res Bool := do
  let b ← s.shouldHeatLoop p s.turnOn
  if b then
    let off ← s.shutsOff p
    return !off
  else return false

/-- `HeatSource::fractToMeetComparisonExternal`, src/HPWHHeatSource.cc:335-346. -/
def fractToMeetLoop (p : Plant n) : List Logic → ℚ → Res ℚ
  | [], frac => .ok frac
  | l :: ls, frac => do
    let f ← l.fractToMeet p
    fractToMeetLoop p ls (if f < frac then f else frac)

/-- `HeatSource::fractToMeetComparisonExternal`, src/HPWHHeatSource.cc:335-346. -/
def fractToMeet (s : SourceCfg n k) (p : Plant n) : Res ℚ := fractToMeetLoop p s.shutOff 1

/-- `HeatSource::getTankTemp`, src/HPWHHeatSource.cc:376. -/
def tankTemp (s : SourceCfg n k) (p : Plant n) : Res ℚ := s.heatDist.averageT p.tank.nodeTs

end SourceCfg

/-! ## Distributed heating -/

/-- `*max_element(...)`, src/HPWHHeatSource.cc:354. -/
def maxWeight (dist : Nodes n ℚ) : ℚ := Finset.univ.sup' ⟨0, Finset.mem_univ _⟩ dist

/-- The loop of `HeatSource::heat`, src/HPWHHeatSource.cc:358-372, over the nodes below `i`, from the
top down: left-over heat and tank. `cap` is the temperature cap `min(maxT, setpoint)` of
`HPWH::addHeatAboveNode`, src/HPWH.cc:2611-2616. -/
def heatLoop (offered cap maxW : ℚ) (dist : Nodes n ℚ) :
    (i : ℕ) → i ≤ n + 1 → ℚ → Tank n → ℚ × Tank n
  | 0, _, leftover, t => (leftover, t)
  | i + 1, h, leftover, t =>
    let d := dist ⟨i, by omega⟩
    let withheld := (1 - d / maxW) ^ 2 * leftover
    let available := d * offered + (leftover - withheld)
    if available > 0 then
      let r := t.addHeatAboveNode available ⟨i, by omega⟩ cap
      heatLoop offered cap maxW dist i (by omega) (r.1 + withheld) r.2
    else heatLoop offered cap maxW dist i (by omega) leftover t

/-- `HeatSource::heat`, src/HPWHHeatSource.cc:348-374, for a computed distribution. A zero largest
weight divides by zero. -/
def heat (t : Tank n) (setpoint : ℚ) (dist : Nodes n ℚ) (offered maxT : ℚ) : Res (ℚ × Tank n) :=
  if maxWeight dist = 0 then .error .nan
  else .ok (heatLoop offered (min maxT setpoint) (maxWeight dist) dist (n + 1) le_rfl 0 t)

/-! ## Resistance elements -/

/-- `Resistance::addHeat`, src/Resistance.cc:84-101. A zero capacity divides by zero. -/
def resistanceAddHeat (s : SourceCfg n k) (power_kW : ℚ) (p : Plant n) (st : SourceState)
    (minutes : ℚ) : Res (Plant n × SourceState) := do
  let dist ← s.heatDist.calcHeatDist (n + 1)
  let offered := power_kW * (minutes * secPerMin)
  let r ← heat p.tank p.setpoint dist offered 100
  if offered = 0 then .error .nan
  else
    let runtime := (1 - r.1 / offered) * minutes
    if runtime < -tolMin then .error .error
    else
      return ({ p with tank := r.2 },
        { st with
          runtime_min := runtime
          energyInput_kWh := st.energyInput_kWh + power_kW * (runtime / minPerHr)
          energyOutput_kWh := st.energyOutput_kWh + power_kW * (runtime / minPerHr) })

/-! ## Condensers -/

namespace CondCfg

/-- The search of `defrostDerate`, src/Condenser.cc:1006-1021, above the point `prev`, for an air
temperature strictly above `prev`. The list cannot be exhausted: the last temperature is above the
air temperature. The interpolation divides by a positive difference. -/
def defrostSearch (airT : ℚ) : ℚ × ℚ → List (ℚ × ℚ) → Res ℚ
  | _, [] => .error .ub
  | prev, q :: qs =>
    if airT ≤ q.1 then .ok (prev.2 + (airT - prev.1) * (q.2 - prev.2) / (q.1 - prev.1))
    else defrostSearch airT q qs

/-- The factor applied by `Condenser::defrostDerate`, src/Condenser.cc:998-1022. -/
def defrostFactor (map : List (ℚ × ℚ)) (airT_F : ℚ) : Res ℚ :=
  match h : map with
  | [] => .error .ub
  | q :: qs =>
    if airT_F ≤ q.1 ∨ airT_F ≥ ((q :: qs).getLast (by simp)).1 then .ok 1
    else defrostSearch airT_F q qs

/-- `Condenser::setupDefrostMap`, src/Condenser.cc:989-996, on a condenser without a map. -/
def setupDefrostMap (c : CondCfg) (derate35 : ℚ) : CondCfg :=
  { c with doDefrost := true, defrostMap := c.defrostMap ++ [(17, 1), (35, derate35), (47, 1)] }

/-- `Condenser::getPerformance`, src/Condenser.cc:930-987; `airflow` is `airflowFreedom`
and `setpoint` that of the simulator. -/
def getPerformance (c : CondCfg) (airflow setpoint externalT condenserT : ℚ) : Res Perf := do
  let condenserT := condenserT + c.coldSideOffset
  let resOn : Bool := decide (c.resDefrostPower_kW > 0) &&
    decide (externalT < F_TO_C c.resDefrostOnBelow_F)
  let externalT := if resOn then externalT + dF_TO_dC c.resDefrostLift_dF else externalT
  let e := c.evaluate setpoint externalT condenserT
  let input := e.inputPower_W * c.inputPowerScale
  let cop0 := e.cop * c.copScale
  let cop1 ← if c.doDefrost then do
      let f ← defrostFactor c.defrostMap (C_TO_F externalT)
      pure (cop0 * f)
    else (pure cop0 : Res ℚ)
  let cop2 := if airflow ≠ 1 then cop1 * (56 / 100000 * (375 * airflow) + 79 / 100) else cop1
  return { inputPower_W := if resOn then input + KW_TO_W c.resDefrostPower_kW else input
           outputPower_W := cop2 * input
           cop := cop2 }

end CondCfg

/-- `Condenser::calcHeatDist`, src/Condenser.cc:1024-1037; `exp` is the exponential function. An
external condenser leaves the distribution empty, and `heat` is not called for it. -/
def condenserHeatDist (exp : ℚ → ℚ) (s : SourceCfg n k) (c : CondCfg) (p : Plant n) :
    Res (Nodes n ℚ) :=
  match c.configuration with
  | .submerged => s.heatDist.calcHeatDist (n + 1)
  | .wrapped => calcThermalDist exp s.shrinkageT s.lowestNode p.tank.nodeTs p.setpoint
  | .external => .error .ub

/-- `Condenser::addHeat` for submerged and wrapped coils, src/Condenser.cc:888-910. -/
def internalAddHeat (exp : ℚ → ℚ) (s : SourceCfg n k) (c : CondCfg) (p : Plant n)
    (st : SourceState) (externalT minutes : ℚ) : Res (Plant n × SourceState) := do
  let inlet ← s.tankTemp p
  let perf ← c.getPerformance s.airflowFreedom p.setpoint externalT inlet
  let offered := W_TO_KW perf.outputPower_W * (60 * minutes)
  let dist ← condenserHeatDist exp s c p
  let r ← heat p.tank p.setpoint dist offered c.maxSetpoint
  if offered = 0 then .error .nan
  else
    let runtime := (1 - r.1 / offered) * minutes
    if runtime < -tolMin then .error .error
    else
      let p1 : Plant n := { p with tank := r.2, condenserInlet := inlet }
      let outlet ← s.tankTemp p1
      return ({ p1 with condenserOutlet := outlet },
        { st with
          runtime_min := runtime
          energyInput_kWh := st.energyInput_kWh + W_TO_KW perf.inputPower_W * (runtime / minPerHr)
          energyOutput_kWh :=
            st.energyOutput_kWh + W_TO_KW perf.outputPower_W * (runtime / minPerHr) })

/-! ## External heating -/

/-- The pass from outlet to inlet node of src/Condenser.cc:1119-1129 and 1236-1246: each node mixes
with the one above, the inlet node with water at `target`. The pass runs upward, so the node above has
not been changed yet when it is read. -/
def shiftNodes (T : Nodes n ℚ) (outlet inlet : Fin (n + 1)) (f target : ℚ) : Nodes n ℚ := fun j =>
  if h : outlet ≤ j ∧ j ≤ inlet then
    if hj : j = inlet then (1 - f) * T j + f * target
    else (1 - f) * T j + f * T ⟨j.val + 1, by
      have h1 : j.val ≤ inlet.val := h.2
      have h2 : j.val ≠ inlet.val := fun hc => hj (Fin.ext hc)
      omega⟩
  else T j

/-- Loop state of external heating: the plant, the remaining time and the time-weighted sums
`netPerformance`. -/
structure ExtState (n : ℕ) where
  plant : Plant n
  remaining : ℚ
  net : Perf

/-- Common end of a pass of external heating, src/Condenser.cc:1111-1146 and 1229-1263: move the
water, mix, update the state of charge, accumulate. `remaining` is the time left after the pass. -/
def extFinishPass (s : SourceCfg n k) (c : CondCfg) (p : Plant n) (net perf : Perf)
    (frac target time remaining : ℚ) : Res (ExtState n) := do
  let outletT := p.tank.nodeTs s.externalOutlet
  let tank := ({ p.tank with
    nodeTs := shiftNodes p.tank.nodeTs s.externalOutlet s.externalInlet frac target } :
      Tank n).mixInversions
  let p1 ← ({ p with
    tank := tank
    condenserInlet := p.condenserInlet + outletT * time
    condenserOutlet := p.condenserOutlet + target * time } : Plant n).updateSoC
  return { plant := { p1 with
             externalVolumeHeated := p1.externalVolumeHeated + frac * p1.tank.nodeVolume_L }
           remaining := remaining
           net := { inputPower_W :=
                      net.inputPower_W + (perf.inputPower_W + c.extraPumpPower_W) * time
                    outputPower_W := net.outputPower_W + perf.outputPower_W * time
                    cop := net.cop + perf.cop * time } }

/-- One pass of `addHeatExternal` (single pass), src/Condenser.cc:1057-1146; `none` is the `break` on
line 1072. -/
def spPass (s : SourceCfg n k) (c : CondCfg) (externalT : ℚ) (a : ExtState n) :
    Res (Option (ExtState n)) := do
  let outletT := a.plant.tank.nodeTs s.externalOutlet
  let perf ← c.getPerformance s.airflowFreedom a.plant.setpoint externalT outletT
  let power_kW := W_TO_KW perf.outputPower_W
  let target := min c.maxSetpoint a.plant.setpoint
  let deltaT := target - outletT
  if deltaT ≤ 0 then return none
  else
    let capacity := power_kW * (a.remaining * secPerMin)
    let nodeHeat := a.plant.tank.nodeCp * deltaT
    let frac0 := if capacity < nodeHeat then capacity / nodeHeat else 1
    let needed0 := if capacity < nodeHeat then capacity else nodeHeat
    let toShutOff ← s.fractToMeet a.plant
    let frac := if toShutOff < frac0 then toShutOff else frac0
    let needed := if toShutOff < frac0 then toShutOff * nodeHeat else needed0
    if capacity > needed ∧ capacity = 0 then .error .nan
    else
      let time := if capacity > needed then a.remaining * (needed / capacity) else a.remaining
      let remaining := if capacity > needed then a.remaining - time else 0
      let r ← extFinishPass s c a.plant a.net perf frac target time remaining
      return some r

/-- The `do … while` of `addHeatExternal`, src/Condenser.cc:1056-1149. The code has no bound on the
number of passes; running out of `fuel` is reported as `diverge`. -/
def spLoop (s : SourceCfg n k) (c : CondCfg) (externalT : ℚ) :
    (fuel : ℕ) → ExtState n → Res (ExtState n)
  | 0, _ => .error .diverge
  | fuel + 1, a => do
    let r ← spPass s c externalT a
    match r with
    | none => return a
    | some a' =>
      if a'.remaining > 0 then
        let off ← s.shutsOff a'.plant
        if off then return a' else spLoop s c externalT fuel a'
      else return a'

/-- One pass of `addHeatExternalMP` (multipass), src/Condenser.cc:1184-1263. A zero flow rate divides
by zero. -/
def mpPass (s : SourceCfg n k) (c : CondCfg) (externalT : ℚ) (a : ExtState n) :
    Res (ExtState n) := do
  let frac0 := c.mpFlowRate_LPS * (a.remaining * secPerMin) / a.plant.tank.nodeVolume_L
  let frac := if frac0 > 1 then 1 else frac0
  let T ← Tank.mixNodes a.plant.tank.nodeTs 0 (n + 1) frac
  let p : Plant n := { a.plant with tank := { a.plant.tank with nodeTs := T } }
  let outletT := T s.externalOutlet
  let perf ← c.getPerformance s.airflowFreedom a.plant.setpoint externalT outletT
  let power_kW := W_TO_KW perf.outputPower_W
  if c.mpFlowRate_LPS = 0 then .error .nan
  else
    let deltaT := power_kW / (c.mpFlowRate_LPS * cpWater * rhoWater)
    let target := outletT + deltaT
    let capacity := power_kW * (a.remaining * secPerMin)
    let nodeHeat := p.tank.nodeCp * deltaT
    if capacity > nodeHeat ∧ capacity = 0 then .error .nan
    else
      let time := if capacity > nodeHeat then a.remaining * (nodeHeat / capacity) else a.remaining
      let remaining := if capacity > nodeHeat then a.remaining - time else 0
      extFinishPass s c p a.net perf frac target time remaining

/-- The `do … while` of `addHeatExternalMP`, src/Condenser.cc:1182-1264. -/
def mpLoop (s : SourceCfg n k) (c : CondCfg) (externalT : ℚ) :
    (fuel : ℕ) → ExtState n → Res (ExtState n)
  | 0, _ => .error .diverge
  | fuel + 1, a => do
    let a' ← mpPass s c externalT a
    if a'.remaining > 0 then
      let off ← s.shutsOff a'.plant
      if off then return a' else mpLoop s c externalT fuel a'
    else return a'

/-- Division of the sums by the elapsed time, src/Condenser.cc:1151-1163 and 1266-1276: run time,
plant and average performance. -/
def extFinish (period : ℚ) (a : ExtState n) : ℚ × Plant n × Perf :=
  let runTime := period - a.remaining
  if runTime > 0 then
    (runTime,
      { a.plant with condenserInlet := a.plant.condenserInlet / runTime
                     condenserOutlet := a.plant.condenserOutlet / runTime },
      { inputPower_W := a.net.inputPower_W / runTime
        outputPower_W := a.net.outputPower_W / runTime
        cop := a.net.cop / runTime })
  else (runTime, a.plant, a.net)

/-- `Condenser::addHeatExternal` and `addHeatExternalMP`, src/Condenser.cc:1048-1164, 1175-1277: run
time, plant and average performance. -/
def addHeatExternal (fuel : ℕ) (s : SourceCfg n k) (c : CondCfg) (p : Plant n)
    (externalT period : ℚ) : Res (ℚ × Plant n × Perf) := do
  let a : ExtState n := { plant := p, remaining := period, net := ⟨0, 0, 0⟩ }
  let r ← if c.isMultipass then mpLoop s c externalT fuel a else spLoop s c externalT fuel a
  return extFinish period r

/-- `Condenser::addHeat` for external condensers, src/Condenser.cc:912-927. -/
def externalAddHeat (fuel : ℕ) (s : SourceCfg n k) (c : CondCfg) (p : Plant n)
    (st : SourceState) (externalT minutes : ℚ) : Res (Plant n × SourceState) := do
  let r ← addHeatExternal fuel s c p externalT minutes
  return (r.2.1,
    { st with
      runtime_min := r.1
      energyInput_kWh := st.energyInput_kWh + W_TO_KW r.2.2.inputPower_W * (r.1 / minPerHr)
      energyOutput_kWh := st.energyOutput_kWh + W_TO_KW r.2.2.outputPower_W * (r.1 / minPerHr) })

/-- `Condenser::addHeat`, src/Condenser.cc:882-928. -/
def condenserAddHeat (exp : ℚ → ℚ) (fuel : ℕ) (s : SourceCfg n k) (c : CondCfg) (p : Plant n)
    (st : SourceState) (externalT minutes : ℚ) : Res (Plant n × SourceState) :=
  match c.configuration with
  | .external => externalAddHeat fuel s c p st externalT minutes
  | _ => internalAddHeat exp s c p st externalT minutes

/-! ## Lock-out -/

namespace SourceCfg

/-- `maxedOut`, src/Condenser.cc:82-97; false for a resistance element, src/HPWHHeatSource.hh:46. -/
def maxedOut (s : SourceCfg n k) (p : Plant n) : Res Bool :=
  match s.kind with
  | .resistance _ => .ok false
  | .condenser c =>
    if p.setpoint > c.maxSetpoint then
      if p.tank.nodeTs 0 ≥ c.maxSetpoint then .ok true else s.shutsOff p
    else .ok false

end SourceCfg

/-- `tolT_C`, src/Condenser.cc:108, 156. -/
def tolT : ℚ := 1 / 1000000000

/-- `Condenser::shouldLockOut`, src/Condenser.cc:99-140. -/
def shouldLockOut (s : SourceCfg n k) (c : CondCfg) (st : SourceState) (p : Plant n) (amb : ℚ) :
    Res Bool :=
  if st.lockedOut then .ok true
  else
    let tooCold := (st.isOn && decide (amb + tolT < s.minT - c.hysteresis)) ||
      (!st.isOn && decide (amb + tolT < s.minT))
    let tooWarm := (st.isOn && decide (amb > s.maxT + c.hysteresis + tolT)) ||
      (!st.isOn && decide (amb > s.maxT + tolT))
    match s.maxedOut p with
    | .error e => .error e
    | .ok m => .ok (tooCold || tooWarm || m)

/-- `Condenser::shouldUnlock`, src/Condenser.cc:142-175. -/
def shouldUnlock (s : SourceCfg n k) (c : CondCfg) (st : SourceState) (p : Plant n) (amb : ℚ) :
    Res Bool :=
  if !st.lockedOut then .ok true
  else match s.maxedOut p with
    | .error e => .error e
    | .ok true => .ok false
    | .ok false => .ok
      ((st.isOn && decide (amb > s.minT + c.hysteresis + tolT) &&
          decide (amb + tolT < s.maxT - c.hysteresis)) ||
        (!st.isOn && decide (amb > s.minT + tolT) && decide (amb + tolT < s.maxT)))

/-- `Condenser::toLockOrUnlock`, src/Condenser.cc:68-80: the new state. -/
def toLockOrUnlock (s : SourceCfg n k) (c : CondCfg) (st : SourceState) (p : Plant n) (amb : ℚ) :
    Res SourceState := do
  let l ← shouldLockOut s c st p amb
  let st1 := if l then { st with lockedOut := true } else st
  let u ← shouldUnlock s c st1 p amb
  return if u then { st1 with lockedOut := false } else st1

end HPWH
