import Verif.Model.Schema

/-! # Exporting a simulator -/

namespace HPWH

open _root_.HPWH.Units

/-! ## Descriptions -/

/-- The text `generate_metadata` puts where no description is given, src/HPWHUtils.hh:65-67. -/
def Info.defaultText : String := "Representation of embedded HPWH element"

/-- `generate_metadata` (src/HPWHUtils.hh:59-89), `Description::to` (src/HPWH.hh:186-191),
`ProductInformation::to` (src/HPWH.hh:228-240). -/
def Info.toRs (x : Info) : RsInfo :=
  { metadata := some (some (x.description.getD defaultText))
    product :=
      if x.manufacturer.isSome && x.modelNumber.isSome then some (x.manufacturer, x.modelNumber) else none }

/-- `Rating10CFR430::empty`, src/HPWH.hh:262-267. -/
def Rating.isEmpty (x : Rating) : Bool :=
  !(x.certifiedReferenceNumber.isSome || x.nominalTankVolume.isSome || x.firstHourRating.isSome ||
    x.recoveryEfficiency.isSome || x.uniformEnergyFactor.isSome)

/-- `Rating10CFR430::to`, src/HPWH.hh:296-312. -/
def Rating.toRs (x : Rating) : Option Rating := if x.isEmpty then none else some x

/-! ## Tank and logics -/

/-- `Tank::to`, src/Tank.cc:58-87. -/
def Tank.toRs {n : ℕ} (t : Tank n) (i : Info) : RsTank :=
  { info := i.toRs
    volume := some (t.volume_L / 1000)
    ua := some (1000 * t.UA / 3600)
    fittingsUA := some (1000 * t.fittingsUA / 3600)
    mixingFraction := some (if t.mixesOnDraw then t.mixBelowFractionOnDraw else 0)
    exchangerEffectiveness := if t.hasHeatExchanger then some t.heatExchangerEffectiveness else none }

/-- `maximumWeight`, src/HPWH.hh:412-418. -/
def WDist.maximumWeight (d : WDist) : ℚ := d.foldl (fun r p => max p.weight r) 0

/-- `fractionalHeight` and `fractionalWeight` of every entry, src/HPWH.hh:410-437,
src/HPWHHeatSource.cc:142-147. Division by zero gives NaN or infinity. -/
def WDist.toRs (d : WDist) : Res RsDist :=
  if hd : d = [] then .ok ⟨some [], some []⟩
  else
    let h := WDist.maximumHeight d hd
    let w := d.maximumWeight
    if h = 0 ∨ w = 0 then .error .nan
    else .ok ⟨some (d.map (·.height / h)), some (d.map (·.weight / w))⟩

/-- `if (compare(1., 2.))`, src/HPWHHeatingLogic.cc:434-445,472-483. -/
def Cmp.toRs : Cmp → RsComparison
  | .less => .less
  | .greater => .greater

/-- `switch (dist.distributionType)`, src/HPWHHeatingLogic.cc:485-523. -/
def Dist.toRs : Dist → Res (Option RsLocation × Option RsDist)
  | .top => .ok (some .top, none)
  | .bottom => .ok (some .bottom, none)
  | .weighted d => do
    let r ← d.toRs
    return (none, some r)

/-- `TempBasedHeatingLogic::to`, src/HPWHHeatingLogic.cc:451-530, and `SoCBasedHeatingLogic::to`, 414-449. The latter
assigns through a reference to the base class, `*heating_logic.heating_logic = logic`, which copies none of
the fields. -/
def Logic.toRs (l : Logic) : Res RsLogic :=
  match l.kind with
  | .temp isAbsolute dist => do
    let d ← dist.toRs
    return { comparison := some l.cmp.toRs
             body := .temperature
               { absolute := if isAbsolute then some (C_TO_K l.decisionPoint) else none
                 differential := if isAbsolute then none else some l.decisionPoint
                 location := d.1
                 dist := d.2
                 checksStandby := if l.checkStandby then some true else none } }
  | .soc .. => .ok
      { comparison := some l.cmp.toRs
        body := .stateOfCharge
          { decisionPoint := none, minimumUseful := none, hysteresis := none, usesConstantMains := none,
            constantMains := none } }

/-! ## Condensers -/

/-- `fabs(coef / refCoef)` and `coef` of src/Condenser.cc:556-590: the second difference of a performance
figure in the water temperature. -/
def curvature (f : ℚ → ℚ) (T : ℚ) : ℚ :=
  let dF : ℚ := 1 / 100000
  let dC := dF_TO_dC dF
  (f (T - dC) + f (T + dC) - 2 * f T) / dF / dF / 2

/-- The loop over the environment temperatures, src/Condenser.cc:556-600: the greatest ratios for input
power, output power and COP. The COP's coefficient itself, not its ratio, is compared. -/
def curvatureRatios (eval : ℚ → ℚ → Perf) (T : ℚ) (envTs : List ℚ) : ℚ × ℚ × ℚ :=
  envTs.foldl (fun m e =>
    let cIn := curvature (fun x => (eval e x).inputPower_W) T
    let cOut := curvature (fun x => (eval e x).outputPower_W) T
    let cCop := curvature (fun x => (eval e x).cop) T
    let rIn := |cIn / (3 / 100)|
    let rOut := |cOut / (3 / 100)|
    let rCop := |cCop / (2 / 10000)|
    (if rIn > m.1 then rIn else m.1, if rOut > m.2.1 then rOut else m.2.1,
      if cCop > m.2.2 then rCop else m.2.2)) (0, 0, 0)

/-- Number of points of the water axis, src/Condenser.cc:604-632. The conversion of a negative number to
`std::size_t` is undefined. -/
def waterPoints (maxSetpoint : ℚ) (useCOP : Bool) (r : ℚ × ℚ × ℚ) : Res ℕ :=
  if maxSetpoint < 0 then .error .ub
  else
    let rangeFac := maxSetpoint / dF_TO_dC 160
    let num := fun x : ℚ => ⌊rangeFac * x * (11 - 2) + 2⌋₊
    .ok (if useCOP then max (num r.1) (num r.2.2) else max (num r.1) (num r.2.1))

/-- The water axis, src/Condenser.cc:634-643: `hsT_C` starts at zero and grows by `dhsT_C`. -/
def evenAxis (range : ℚ) (points : ℕ) : List ℚ :=
  (List.range points).map fun i => i * (range / ((points : ℚ) - 1))

/-- The performance map of an integrated condenser, src/Condenser.cc:484-660; `eval air water` is
`evaluatePerformance` at the present setpoint, `grid` is `perfRGI`. -/
def integratedMap (eval : ℚ → ℚ → Perf) (minT maxT maxSetpoint : ℚ) (useCOP : Bool) :
    Option (PerfGrid ℚ) → Res RsMap
  | some g =>
    match g.axes with
    | a0 :: a1 :: _ =>
      let envTs := trimGridVector (a0 ++ [minT, maxT]) minT maxT
      let v := envTs.flatMap fun e => a1.map fun w => eval e w
      .ok { env := some (envTs.map C_TO_K), water := some (a1.map C_TO_K), leaving := none
            inputPower := v.map (·.inputPower_W), heatingCapacity := v.map (·.outputPower_W) }
    | _ => .error .ub
  | none => do
    let envTs := trimGridVector [minT, F_TO_C 50, F_TO_C (675 / 10), F_TO_C 95, maxT, 0, 20, 22, 30] minT maxT
    let points ← waterPoints maxSetpoint useCOP (curvatureRatios eval (F_TO_C (maxSetpoint / 2)) envTs)
    let waterTs := evenAxis maxSetpoint points
    let v := envTs.flatMap fun e => waterTs.map fun w => eval (K_TO_C (C_TO_K e)) (K_TO_C (C_TO_K w))
    return { env := some (envTs.map C_TO_K), water := some (waterTs.map C_TO_K), leaving := none
             inputPower := v.map (·.inputPower_W), heatingCapacity := v.map (·.outputPower_W) }

/-- `Condenser::to(RSCONDENSERWATERHEATSOURCE&)`, src/Condenser.cc:439-663. -/
def condenserToRs (c : CondCfg) (info : Info) (minT maxT : ℚ) (useCOP : Bool) (grid : Option (PerfGrid ℚ))
    (setpoint : ℚ) : Res RsCondenser := do
  let m ← integratedMap (c.evaluate setpoint) minT maxT c.maxSetpoint useCOP grid
  return { info := info.toRs
           coil := match c.configuration with
             | .submerged => .submerged
             | .wrapped => .wrapped
             | .external => .unknown
           maxRefrigerantT := some (C_TO_K c.maxSetpoint)
           hysteresis := some c.hysteresis
           map := some m
           useDefrost := none
           standbyPower := if c.standbyPower_kW > 0 then some (1000 * c.standbyPower_kW) else none }

/-- The fixed environment temperatures, src/Condenser.cc:751-755. -/
def externalEnvTs (minT maxT : ℚ) : List ℚ :=
  [minT, 0, 1/2, 1, 3/2, 2, 5/2, 3, 7/2, 4, 9/2, 5, 11/2, 6, 13/2, 7, 72223/10000, 15/2, 8, 828/100, 17/2,
    9, 19/2, 10, 21/2, 11, 23/2, 12, 25/2, 13, 27/2, 14, 29/2, 15, 31/2, 155555556/10000000, 20, 29, 30, maxT]

/-- The axis of entering temperatures (in K), src/Condenser.cc:762-775. A negative range still gives two
steps. -/
def externalWaterTs (maxSetpoint : ℚ) : List ℚ :=
  let nSteps := ⌊max (51 / 100 * maxSetpoint) 2⌋₊
  arrangeGridVector ((List.range (nSteps + 1)).map fun i => C_TO_K (0 + maxSetpoint / nSteps * i))

/-- The leaving temperatures (°C, without the offset), src/Condenser.cc:777-795. -/
def externalLeavingTs (c : CondCfg) (setpointFixed : Bool) (setpoint : ℚ) : List ℚ :=
  if !c.isMultipass && !setpointFixed then
    trimGridVector [setpoint, 0, c.maxSetpoint, c.maxOutT, 50, 55, 65, F_TO_C 120, 93] 0 c.maxSetpoint
  else [setpoint]

/-- The points of a grid in the order of the nested loops, src/Condenser.cc:733-743,804-817. -/
def gridPoints (env water leaving : List ℚ) : List (ℚ × ℚ × ℚ) :=
  env.flatMap fun e => water.flatMap fun w => leaving.map fun o => (e, w, o)

/-- The loop of src/Condenser.cc:804-817 over the remaining points (temperatures in K): the values found and
the simulator, whose setpoint is set for each of them. -/
def sampleSetpoints {n k : ℕ} (c : CondCfg) : List (ℚ × ℚ × ℚ) → Sim n k → Res (List Perf × Sim n k)
  | [], s => .ok ([], s)
  | p :: ps, s => do
    let s' ← s.setSetpoint (K_TO_C p.2.2 - c.hotSideOffset)
    let r ← sampleSetpoints c ps s'
    return (c.evaluate s'.setpoint (K_TO_C p.1) (K_TO_C p.2.1) :: r.1, r.2)

/-- The performance map of an external condenser, src/Condenser.cc:691-842, with the simulator afterwards.
With a grid the setpoint is assigned directly for each point and left as it is at the last one. -/
def externalMap {n k : ℕ} (s : Sim n k) (c : CondCfg) (minT maxT : ℚ) :
    Option (PerfGrid ℚ) → Res (RsMap × Sim n k)
  | some g =>
    match g.axes with
    | a0 :: a1 :: a2 :: _ =>
      let envTs := trimGridVector (a0 ++ [minT, maxT]) minT maxT
      let pts := gridPoints envTs a1 a2
      let v := pts.map fun p => c.evaluate (p.2.2 - c.hotSideOffset) p.1 p.2.1
      .ok ({ env := some (envTs.map C_TO_K), water := some (a1.map C_TO_K), leaving := some (a2.map C_TO_K)
             inputPower := v.map (·.inputPower_W), heatingCapacity := v.map (·.outputPower_W) },
        { s with setpoint := pts.foldl (fun _ p => p.2.2 - c.hotSideOffset) s.setpoint })
    | _ => .error .ub
  | none => do
    let envTs := (trimGridVector (externalEnvTs minT maxT) minT maxT).map C_TO_K
    let waterTs := externalWaterTs c.maxSetpoint
    let leavingTs := (externalLeavingTs c s.cfg.setpointFixed s.setpoint).map fun o =>
      C_TO_K (o + c.hotSideOffset)
    let (v, s') ← sampleSetpoints c (gridPoints envTs waterTs leavingTs) s
    let s'' ← s'.setSetpoint s.setpoint
    return ({ env := some envTs, water := some waterTs, leaving := some leavingTs
              inputPower := v.map (·.inputPower_W), heatingCapacity := v.map fun p => p.cop * p.inputPower_W },
      s'')

/-- `Condenser::to(RSAIRTOWATERHEATPUMP&)`, src/Condenser.cc:665-880. -/
def heatPumpToRs {n k : ℕ} (s : Sim n k) (c : CondCfg) (info : Info) (minT maxT : ℚ)
    (grid : Option (PerfGrid ℚ)) : Res (RsHeatPump × Sim n k) := do
  let (m, s') ← externalMap s c minT maxT grid
  return ({ info := info.toRs
            maxRefrigerantT := some (C_TO_K c.maxSetpoint)
            hysteresis := some c.hysteresis
            map := some m
            useDefrost := some c.doDefrost
            standbyPower := if c.standbyPower_kW > 0 then some (1000 * c.standbyPower_kW) else none
            resDefrost := if c.resDefrostPower_kW > 0 then
                some { inputPower := KW_TO_W c.resDefrostPower_kW, lift := dF_TO_dC c.resDefrostLift_dF
                       activation := F_TO_K c.resDefrostOnBelow_F }
              else none
            lowLimit := if c.maxOutAirT > -(27315 / 100) then
                some { maxSetpoint := C_TO_K c.maxOutT, threshold := C_TO_K c.maxOutAirT }
              else none },
    s')

/-! ## Heat sources and the whole simulator -/

namespace Machine

variable {n k : ℕ}

/-- `hasACompressor() && getCompressorCoilConfig() == CONFIG_EXTERNAL`, src/HPWH.cc:3446,2257-2265,2297. -/
def compressorExternal (s : Sim n k) : Bool :=
  match s.cfg.compressorIndex with
  | none => false
  | some j =>
    match (s.cfg.src j).kind with
    | .condenser c => decide (c.configuration = .external)
    | .resistance _ => false

/-- The heat source proper in `HeatSource::to`, src/HPWHHeatSource.cc:193-229. The object written to is
chosen by the simulator's compressor (`isCompressorExternal`, src/HPWH.cc:2287-2295, an error if there is
none), but `Condenser::to` (src/Condenser.cc:423-437) casts it according to
the condenser's own configuration: if they differ, memory of the wrong type is written. -/
def sourceToRs (M : Machine n k) (s : Sim n k) (i : Fin k) : Res (RsSource × Sim n k) :=
  let src := s.cfg.src i
  match src.kind with
  | .resistance p => .ok (.resistance (M.srcInfo i).toRs (1000 * p), s)
  | .condenser c =>
    if s.cfg.compressorIndex = none then .error .error
    else if compressorExternal s ≠ decide (c.configuration = .external) then .error .ub
    else if c.configuration = .external then do
      let (x, s') ← heatPumpToRs s c (M.srcInfo i) src.minT src.maxT (M.grid i)
      return (.heatPump x, s')
    else do
      let x ← condenserToRs c (M.srcInfo i) src.minT src.maxT M.useCOP (M.grid i) s.setpoint
      return (.condenser x, s)

/-- `HeatSource::to`, src/HPWHHeatSource.cc:139-230. -/
def configToRs (M : Machine n k) (s : Sim n k) (i : Fin k) : Res (RsConfig × Sim n k) := do
  let src := s.cfg.src i
  let d ← src.heatDist.toRs
  let shutOff ← src.shutOff.mapM Logic.toRs
  let turnOn ← src.turnOn.mapM Logic.toRs
  let standby ← src.standby.mapM Logic.toRs
  let (x, s') ← M.sourceToRs s i
  return ({ id := some (M.name i), heatDist := some d, turnOn := turnOn, shutOff := shutOff
            standby := standby, backup := src.backup.map M.name, followedBy := src.followedBy.map M.name
            companion := src.companion.map M.name, source := x },
    s')

/-- The loop over the heat sources, src/HPWH.cc:3490-3501, for the remaining ones. -/
def configLoop (M : Machine n k) : List (Fin k) → (Fin k → RsConfig) → Sim n k →
    Res ((Fin k → RsConfig) × Sim n k)
  | [], cs, s => .ok (cs, s)
  | i :: is, cs, s => do
    let (c, s') ← M.configToRs s i
    configLoop M is (Function.update cs i c) s'

/-- `sPrimaryHeatSource_id`: the last heat source marked as VIP, src/HPWH.cc:3488-3505. -/
def primaryName (M : Machine n k) : Option String :=
  ((List.finRange k).filter fun i => (M.sim.cfg.src i).isVIP).getLast?.map M.name

/-- `HPWH::to(RSINTEGRATEDWATERHEATER&)`, src/HPWH.cc:3468-3511. -/
def integratedToRs (M : Machine n k) : Res (RsIntegrated k × Sim n k) := do
  let (cs, s) ← M.configLoop (List.finRange k) (fun _ => .blank) M.sim
  return ({ info := M.info.toRs, rating := M.rating.toRs, tank := M.sim.tank.toRs M.tankInfo, configs := cs
            primary := M.primaryName }, s)

/-- `HPWH::to(CentralWaterHeatingSystem&)`, src/HPWH.cc:3513-3568. It is called when the compressor is an
external condenser. -/
def centralToRs (M : Machine n k) : Res (RsCentral k × Sim n k) := do
  let (cs, s) ← M.configLoop (List.finRange k) (fun _ => .blank) M.sim
  let (j, c) ← s.compressor
  return ({ tank := M.sim.tank.toRs M.tankInfo, configs := cs, primary := M.primaryName
            inletHeight := some (((s.cfg.src j).externalInlet.val : ℚ) / ((n + 1 : ℕ) : ℚ))
            outletHeight := some (((s.cfg.src j).externalOutlet.val : ℚ) / ((n + 1 : ℕ) : ℚ))
            multipass := some c.isMultipass
            fixedFlowRate := if c.isMultipass then some (c.mpFlowRate_LPS / 1000) else none
            exchanger := if c.extraPumpPower_W > 0 then
                some { coldOffset := c.coldSideOffset, hotOffset := c.hotSideOffset
                       extraPumpPower := c.extraPumpPower_W }
              else none }, s)

/-- The choice of the system, src/HPWH.cc:3446-3465. -/
def systemToRs (M : Machine n k) : Res (RsSystem k × Sim n k) :=
  if compressorExternal M.sim then M.centralToRs.map fun x => (.central x.1, x.2)
  else M.integratedToRs.map fun x => (.integrated x.1, x.2)

/-- `HPWH::to(HPWHSimInput&)`, src/HPWH.cc:3427-3466, with the simulator afterwards. -/
def toInput (M : Machine n k) : Res (SimInput k × Sim n k) := do
  let (sys, s) ← M.systemToRs
  return ({ depressesTemperature := some M.sim.cfg.doTempDepression
            numberOfNodes := some (n + 1)
            fixedVolume := some M.sim.tank.volumeFixed
            standardSetpoint := some (C_TO_K M.sim.setpoint)
            interpolateCop := if M.sim.cfg.compressorIndex.isSome then some M.useCOP else none
            system := sys }, s)

end Machine

end HPWH
