import Verif.Model.Export

/-! # Importing a simulator -/

namespace HPWH

open _root_.HPWH.Units

/-! ## Descriptions -/

/-- `Description::from` (src/HPWH.hh:173-181) and `ProductInformation::from` (src/HPWH.hh:210-223): absent
parts leave what was there. -/
def Info.ofRs (old : Info) (r : RsInfo) : Info :=
  { description := r.metadata.getD old.description
    manufacturer := (r.product.map (·.1)).getD old.manufacturer
    modelNumber := (r.product.map (·.2)).getD old.modelNumber }

/-- A default-constructed description, src/HPWH.hh:165,199. -/
def Info.blank : Info := ⟨none, none, none⟩

/-- `Rating10CFR430::from`, src/HPWH.hh:271-292. -/
def Rating.ofRs (old : Rating) (r : Option Rating) : Rating := r.getD old

/-! ## Tank and logics -/

/-- `Tank::from`, src/Tank.cc:33-56. -/
def Tank.ofRs {n : ℕ} (t : Tank n) (r : RsTank) : Tank n :=
  let mix := r.mixingFraction.getD 0
  { t with
    volume_L := (r.volume.map (1000 * ·)).getD 0
    UA := (r.ua.map (3600 * · / 1000)).getD 0
    fittingsUA := (r.fittingsUA.map (3600 * · / 1000)).getD 0
    mixBelowFractionOnDraw := mix
    mixesOnDraw := decide (mix > 0)
    hasHeatExchanger := r.exchangerEffectiveness.isSome
    heatExchangerEffectiveness := r.exchangerEffectiveness.getD t.heatExchangerEffectiveness }

/-- `WeightedDistribution(heights, weights)`, src/HPWH.hh:376-391, from a distribution of the data model; absent
vectors are empty. -/
def WDist.ofRs (r : RsDist) : WDist := WDist.ofVectors (r.heights.getD []) (r.weights.getD [])

/-- `switch (logic.comparison_type)`, src/HPWHHeatingLogic.cc:301-323. An unknown comparison leaves an
empty function, whose first use throws; the model reports that at once. -/
def Cmp.ofRs : Option RsComparison → Res Cmp
  | some .greater => .ok .greater
  | some .less => .ok .less
  | some .unknown => .error .error
  | none => .error .error

/-- Label and distribution of an imported logic, src/HPWHHeatingLogic.cc:342,361-396. The default
distribution is the top of the tank, src/HPWH.hh:505. -/
def Dist.ofRs (r : RsTempLogic) : String × Dist :=
  let d : String × Dist := match r.location with
    | some .top => ("top of tank", .top)
    | some .bottom => ("bottom of tank", .bottom)
    | _ => ("name", .top)
  match r.dist with
  | some ⟨some h, some w⟩ => (d.1, .weighted (WDist.ofVectors h w))
  | _ => d

/-- `HeatingLogic::make`, src/HPWHHeatingLogic.cc:294-412; the settings of a state-of-charge logic are the defaults of
its constructor, src/HPWHHeatingLogic.hh:62-80. -/
def Logic.ofRs (r : RsLogic) : Res (Option Logic) :=
  match r.body with
  | .stateOfCharge x => .ok (some
      { kind := .soc (43333 / 1000) (-(5 / 100)) false (18333 / 1000)
        decisionPoint := x.decisionPoint.getD 0
        cmp := .less
        isEnteringWaterHighTempShutoff := false
        checkStandby := false
        description := "name" })
  | .temperature x =>
    match x.absolute, x.differential with
    | none, none => .ok none
    | some a, _ => do
      let c ← Cmp.ofRs r.comparison
      return some { kind := .temp true (Dist.ofRs x).2, decisionPoint := K_TO_C a, cmp := c
                    isEnteringWaterHighTempShutoff := false, checkStandby := x.checksStandby.getD false
                    description := (Dist.ofRs x).1 }
    | none, some b => do
      let c ← Cmp.ofRs r.comparison
      return some { kind := .temp false (Dist.ofRs x).2, decisionPoint := b, cmp := c
                    isEnteringWaterHighTempShutoff := false, checkStandby := x.checksStandby.getD false
                    description := (Dist.ofRs x).1 }

/-- Reading a list of logics; those that give none are left out, src/HPWHHeatSource.cc:102-124. -/
def Logic.listOfRs (l : List RsLogic) : Res (List Logic) := do
  let r ← l.mapM Logic.ofRs
  return r.filterMap id

/-! ## Performance grids -/

/-- The library that interpolates in a performance grid (`Btwxt::RegularGridInterpolator`, not in /repo):
which grids it accepts (otherwise it throws), and the two interpolated values at a target, for the
interpolation methods `setUpGridAxes` (src/Condenser.cc:1285-1356) chooses from the model and from whether the
condenser is integrated. -/
structure Btwxt where
  accepts : PerfGrid ℚ → Bool
  value : GridStyle → (integrated : Bool) → PerfGrid ℚ → List ℚ → ℚ × ℚ

/-- `evaluatePerformance` as made by `makePerformanceBtwxt`, src/Condenser.cc:1366-1404. -/
def gridPerf (b : Btwxt) (style : GridStyle) (integrated useCOP : Bool) (g : PerfGrid ℚ) (hotSideOffset : ℚ)
    (setpoint air water : ℚ) : Perf :=
  let r := b.value style integrated g
    (if g.axes.length > 2 then [air, water, setpoint + hotSideOffset] else [air, water])
  if useCOP then ⟨r.1, r.1 * r.2, r.2⟩ else ⟨r.1, r.2, r.2 / r.1⟩

/-- The loop over the lookup values, src/Condenser.cc:296-304: input powers, and heating capacities or COPs.
A missing capacity is read outside the vector; division by zero input gives NaN or infinity. -/
def lookupValues (useCOP : Bool) : List ℚ → List ℚ → Res (List ℚ)
  | [], _ => .ok []
  | _ :: _, [] => .error .ub
  | p :: ps, q :: qs =>
    if useCOP = true ∧ p = 0 then .error .nan
    else do
      let r ← lookupValues useCOP ps qs
      return (if useCOP then q / p else q) :: r

/-- The performance grid of a description, src/Condenser.cc:264-307,341-394: the grid, with the least and
the greatest environment temperature. A map without environment temperatures is not modelled further (the
second axis would be missing or taken for the first): it is an error here. -/
def gridOfRs (b : Btwxt) (useCOP : Bool) (m : RsMap) : Res (PerfGrid ℚ × ℚ × ℚ) :=
  match m.env, m.water with
  | some env, some water =>
    match env.map K_TO_C with
    | [] => .error .ub
    | e :: es => do
      let second ← lookupValues useCOP m.inputPower m.heatingCapacity
      let g : PerfGrid ℚ :=
        { axes := (e :: es) :: water.map K_TO_C :: (m.leaving.map (·.map K_TO_C)).toList
          tables := [m.inputPower, second] }
      if b.accepts g then return (g, e, (e :: es).getLast (by simp)) else .error .error
  | some _, none => .error .ub
  | none, _ => .error .error

/-! ## Heat sources -/

/-- A newly constructed condenser, src/Condenser.cc:16-32, src/Condenser.hh:60-66. The flow rate is not
initialised (0 here); there is no performance function yet. -/
def CondCfg.blank : CondCfg :=
  { configuration := .wrapped, isMultipass := true, mpFlowRate_LPS := 0, maxSetpoint := 100, hysteresis := 0
    doDefrost := false, defrostMap := [], resDefrostPower_kW := 0, resDefrostLift_dF := 0
    resDefrostOnBelow_F := -999, maxOutT := 100, maxOutAirT := -(27315 / 100), coldSideOffset := 0
    hotSideOffset := 0, extraPumpPower_W := 0, standbyPower_kW := 0, inputPowerScale := 1, copScale := 1
    evaluate := fun _ _ _ => ⟨0, 0, 0⟩ }

/-- A heat source as read: its settings and its texts and grid. -/
structure ReadSource (n k : ℕ) where
  cfg : SourceCfg n k
  info : Info
  grid : Option (PerfGrid ℚ)

/-- A newly constructed heat source, src/HPWHHeatSource.cc:18-37; the ports (-1, no node) and the derived
values are set later. -/
def SourceCfg.blank {n k : ℕ} (kind : SourceKind) : SourceCfg n k :=
  { kind := kind, isVIP := false, backup := none, companion := none, followedBy := none, heatDist := []
    shrinkageT := 0, lowestNode := 0, turnOn := [], shutOff := [], standby := none, minT := -(27315 / 100)
    maxT := 100, depressesTemperature := false, airflowFreedom := 1, externalInlet := 0, externalOutlet := 0 }

/-- `if (perf.use_defrost_map_is_set && perf.use_defrost_map) setupDefrostMap()`, src/Condenser.cc:309-312. -/
def CondCfg.withDefrost (c : CondCfg) (x : Option Bool) : CondCfg :=
  if x = some true then setupDefrostMap c (8865 / 10000) else c

/-- `Condenser::from(RSCONDENSERWATERHEATSOURCE&)`, src/Condenser.cc:225-318, on a new condenser. Without
a performance map there is no performance function and `checkInputs` (src/HPWH.cc:2966-2982) reports an error. -/
def readCondenser {n k : ℕ} (b : Btwxt) (style : GridStyle) (useCOP : Bool) (x : RsCondenser) :
    Res (ReadSource n k) :=
  match x.map with
  | none => .error .error
  | some m => do
    let (g, lo, hi) ← gridOfRs b useCOP { m with leaving := none }
    let c : CondCfg :=
      { CondCfg.blank with
        configuration := match x.coil with
          | .submerged => .submerged
          | .wrapped => .wrapped
          | .unknown => .wrapped
        maxSetpoint := (x.maxRefrigerantT.map K_TO_C).getD 100
        hysteresis := x.hysteresis.getD 0
        standbyPower_kW := (x.standbyPower.map W_TO_KW).getD 0
        evaluate := gridPerf b style true useCOP g 0 }
    return { cfg := { SourceCfg.blank (.condenser (c.withDefrost x.useDefrost)) with minT := lo, maxT := hi }
             info := Info.blank.ofRs x.info, grid := some g }

/-- `static_cast<int>` of a height times the number of nodes. Numbers that are no node are rejected by
`checkInputs` (src/HPWH.cc:2949-2963). -/
def portOf {n : ℕ} (x : ℚ) : Res (Fin (n + 1)) :=
  let t : ℤ := if x < 0 then -⌊-x⌋ else ⌊x⌋
  if h : 0 ≤ t ∧ t < (n + 1 : ℕ) then .ok ⟨t.toNat, by omega⟩ else .error .error

/-- `Condenser::from(RSAIRTOWATERHEATPUMP&)`, src/Condenser.cc:320-421, after the flow rate and the
secondary heat exchanger are set, src/HPWH.cc:3353-3367. The ports are not yet set. -/
def readHeatPump {n k : ℕ} (b : Btwxt) (style : GridStyle) (useCOP : Bool) (flow : Option ℚ)
    (exchanger : Option RsExchanger) (x : RsHeatPump) : Res (ReadSource n k) :=
  match x.map with
  | none => .error .error
  | some m => do
    let (g, lo, hi) ← gridOfRs b useCOP m
    let hot := (exchanger.map (·.hotOffset)).getD 0
    let c : CondCfg :=
      { CondCfg.blank with
        configuration := .external
        isMultipass := flow.isSome
        mpFlowRate_LPS := (flow.map (1000 * ·)).getD 0
        coldSideOffset := (exchanger.map (·.coldOffset)).getD 0
        hotSideOffset := hot
        extraPumpPower_W := (exchanger.map (·.extraPumpPower)).getD 0
        maxSetpoint := (x.maxRefrigerantT.map K_TO_C).getD 100
        hysteresis := x.hysteresis.getD 0
        standbyPower_kW := (x.standbyPower.map W_TO_KW).getD 0
        resDefrostPower_kW := (x.resDefrost.map fun r => W_TO_KW r.inputPower).getD 0
        resDefrostLift_dF := (x.resDefrost.map fun r => dC_TO_dF r.lift).getD 0
        resDefrostOnBelow_F := (x.resDefrost.map fun r => K_TO_F r.activation).getD (-999)
        maxOutT := (x.lowLimit.map fun r => K_TO_C r.maxSetpoint).getD 100
        maxOutAirT := (x.lowLimit.map fun r => K_TO_C r.threshold).getD (-(27315 / 100))
        evaluate := gridPerf b style false useCOP g hot }
    return { cfg := { SourceCfg.blank (.condenser (c.withDefrost x.useDefrost)) with minT := lo, maxT := hi }
             info := Info.blank.ofRs x.info, grid := some g }

/-- `Resistance::from`, src/Resistance.cc:33-46. -/
def readResistance {n k : ℕ} (info : RsInfo) (p : ℚ) : ReadSource n k :=
  { cfg := SourceCfg.blank (.resistance (p / 1000)), info := Info.blank.ofRs info, grid := none }

/-- `switch (config.heat_source_type)` of an integrated system, src/HPWH.cc:3258-3285. Other types add no
heat source, and the next line accesses it. -/
def readIntegratedSource {n k : ℕ} (b : Btwxt) (style : GridStyle) (useCOP : Bool) :
    RsSource → Res (ReadSource n k)
  | .condenser x => readCondenser b style useCOP x
  | .resistance i p => .ok (readResistance i p)
  | .heatPump _ => .error .ub
  | .unknown => .error .ub

/-- The same for a central system, src/HPWH.cc:3336-3385. -/
def readCentralSource {n k : ℕ} (b : Btwxt) (style : GridStyle) (useCOP : Bool) (flow : Option ℚ)
    (exchanger : Option RsExchanger) : RsSource → Res (ReadSource n k)
  | .heatPump x => readHeatPump b style useCOP flow exchanger x
  | .resistance i p => .ok (readResistance i p)
  | .condenser _ => .error .ub
  | .unknown => .error .ub

/-- `heat_source_lookup[id]`, src/HPWH.cc:3287-3312: the last heat source with that identifier; an unknown identifier
is inserted with number 0. -/
def lookupId {k : ℕ} (configs : Fin k → RsConfig) (id : String) (h : 0 < k) : Fin k :=
  (((List.finRange k).filter fun i => (configs i).id.getD "" = id).getLast?).getD ⟨0, h⟩

/-- `HeatSource::from`, src/HPWHHeatSource.cc:91-137, and the links, src/HPWH.cc:3296-3314: heat source `i`. -/
def readConfig {n k : ℕ} (configs : Fin k → RsConfig) (primary : Option String) (i : Fin k)
    (r : ReadSource n k) : Res (ReadSource n k × String) := do
  let x := configs i
  let h : 0 < k := Nat.lt_of_le_of_lt (Nat.zero_le _) i.isLt
  let turnOn ← Logic.listOfRs x.turnOn
  let shutOff ← Logic.listOfRs x.shutOff
  let standby ← x.standby.mapM Logic.ofRs
  let name := x.id.getD "heatsource"
  return ({ r with cfg :=
    { r.cfg with
      heatDist := (x.heatDist.map WDist.ofRs).getD []
      turnOn := turnOn, shutOff := shutOff, standby := standby.join
      isVIP := decide (name = primary.getD "")
      backup := x.backup.map (lookupId configs · h)
      followedBy := x.followedBy.map (lookupId configs · h)
      companion := x.companion.map (lookupId configs · h) } }, name)

/-! ## The whole simulator -/

/-- The value of a call that succeeded. -/
def Res.get {α : Type} : (r : Res α) → r.isOk = true → α
  | .ok x, _ => x

/-- The loop over the heat sources: the results for all of them, or the first failure. -/
def collect {k : ℕ} {α : Type} (f : Fin k → Res α) : Res (Fin k → α) :=
  if h : ∀ i, (f i).isOk = true then .ok fun i => Res.get (f i) (h i)
  else
    match (List.finRange k).findSome? fun i => match f i with
        | .error e => some e
        | .ok _ => none with
    | some e => .error e
    | none => .error .ub

/-- State of a newly constructed heat source, src/HPWHHeatSource.cc:18-37. -/
def SourceState.blank : SourceState :=
  { isOn := false, lockedOut := false, runtime_min := 0, energyInput_kWh := 0, energyOutput_kWh := 0 }

/-- `compressorIndex` after the loop over the heat sources, src/HPWH.cc:3269,3375: the last condenser. -/
def lastCondenser {n k : ℕ} (src : Fin k → SourceCfg n k) : Option (Fin k) :=
  ((List.finRange k).filter fun i => match (src i).kind with
    | .condenser _ => true
    | .resistance _ => false).getLast?

namespace Machine

variable {n k k₀ : ℕ}

/-- What `HPWH::from` sets, src/HPWH.cc:3170-3230, given the heat sources read; `base` is the simulator the
description is read into. Indices other than the compressor's are recomputed by `calcDerivedValues`. The node
temperatures, resized by `setNumNodes`, are those of `base` (`configure` resets them). -/
def assemble (base : Machine n k₀) (d : SimInput k) (tank : RsTank) (rs : Fin k → ReadSource n k × String) :
    Machine n k :=
  let t := base.sim.tank.ofRs tank
  { sim :=
      { base.sim.toPlant with
        tank := { t with volumeFixed := d.fixedVolume.getD false }
        setpoint := (d.standardSetpoint.map K_TO_C).getD (F_TO_C 135)
        cfg :=
          { src := fun i => (rs i).1.cfg
            minutesPerStep := base.sim.cfg.minutesPerStep
            doTempDepression := d.depressesTemperature.getD false
            maxDepression := base.sim.cfg.maxDepression
            timerLimitTOT := base.sim.cfg.timerLimitTOT
            compressorIndex := lastCondenser fun i => (rs i).1.cfg
            lowestElementIndex := none
            vipIndex := none
            setpointFixed := base.sim.cfg.setpointFixed
            isStorageTank := base.sim.cfg.isStorageTank
            canScale := base.sim.cfg.canScale
            heightMap := [] }
        st := fun _ => .blank
        isHeating := base.sim.isHeating
        locationT := base.sim.locationT
        timerTOT := base.sim.timerTOT
        energyRemoved_kWh := base.sim.energyRemoved_kWh
        standbyLosses_kWh := base.sim.standbyLosses_kWh
        extraEnergyInput_kWh := base.sim.extraEnergyInput_kWh }
    name := fun i => (rs i).2
    srcInfo := fun i => (rs i).1.info
    grid := fun i => (rs i).1.grid
    tankInfo := base.tankInfo.ofRs tank.info
    info := base.info
    rating := base.rating
    useCOP := d.interpolateCop.getD false
    style := base.style }

/-- `HPWH::from(RSINTEGRATEDWATERHEATER&)`, src/HPWH.cc:3232-3315. -/
def readIntegrated (b : Btwxt) (base : Machine n k₀) (d : SimInput k) (x : RsIntegrated k) :
    Res (Machine n k) := do
  let rs ← collect fun i => do
    let r ← readIntegratedSource b base.style (d.interpolateCop.getD false) (x.configs i).source
    readConfig x.configs x.primary i r
  return { assemble base d x.tank rs with info := base.info.ofRs x.info, rating := base.rating.ofRs x.rating }

/-- The ports an external heat source is given while it is read, src/HPWH.cc:3345-3350. -/
def readPorts (x : RsCentral k) (r : ReadSource n k) : Res (ReadSource n k) :=
  match r.cfg.kind with
  | .resistance _ => .ok r
  | .condenser _ => do
    let i ← portOf (x.inletHeight.getD 1 * (n : ℚ))
    let o ← portOf (x.outletHeight.getD 1 * (n : ℚ))
    return { r with cfg := { r.cfg with externalInlet := i, externalOutlet := o } }

/-- The compressor's ports, src/HPWH.cc:3203-3216, set from the heights and the number of nodes whether
present or not. Its flow rate and configuration are set to what they are already. Without a condenser
the index is left from before or -1. -/
def setPorts (d : SimInput k) (x : RsCentral k) (M : Machine n k) : Res (Machine n k) :=
  match M.sim.cfg.compressorIndex with
  | none => .error .ub
  | some j => do
    let i ← portOf (x.inletHeight.getD 0 * (d.numberOfNodes.getD 0 : ℚ))
    let o ← portOf (x.outletHeight.getD 0 * (d.numberOfNodes.getD 0 : ℚ))
    return { M with sim := { M.sim with cfg := { M.sim.cfg with
      src := Function.update M.sim.cfg.src j
        { M.sim.cfg.src j with externalInlet := i, externalOutlet := o } } } }

/-- `HPWH::from(CentralWaterHeatingSystem&)`, src/HPWH.cc:3317-3425, and the rest of its case in
`HPWH::from(HPWHSimInput&)`, src/HPWH.cc:3197-3219. -/
def readCentral (b : Btwxt) (base : Machine n k₀) (d : SimInput k) (x : RsCentral k) : Res (Machine n k) := do
  let rs ← collect fun i => do
    let r ← readCentralSource b base.style (d.interpolateCop.getD false) x.fixedFlowRate x.exchanger
      (x.configs i).source
    let r ← readPorts x r
    readConfig x.configs x.primary i r
  setPorts d x (assemble base d x.tank rs)

/-- `HPWH::from(HPWHSimInput&)`, src/HPWH.cc:3170-3230. The number of nodes is `n + 1` by type. -/
def ofInput (b : Btwxt) (base : Machine n k₀) (d : SimInput k) : Res (Machine n k) :=
  if d.numberOfNodes.getD 12 = n + 1 then
    match d.system with
    | .integrated x => readIntegrated b base d x
    | .central x => readCentral b base d x
  else .error .error

/-- The groups of presets that `configure` treats differently, src/HPWH.cc:3068-3115. -/
inductive PresetGroup
  | largeDraw
  | fixedSetpoint
  | enteringWater
  | scalable
  | scalableEnteringWater
  | other
  deriving DecidableEq

/-- Change of the first shut-off logic of the compressor, `heatSources[compressorIndex]->shutOffLogicSet[0]`,
src/HPWH.cc:3070-3114. -/
def changeShutOff (f : Logic → Logic) (s : Sim n k) : Res (Sim n k) :=
  match s.cfg.compressorIndex with
  | none => .error .ub
  | some j =>
    match (s.cfg.src j).shutOff with
    | [] => .error .ub
    | l :: ls => .ok { s with cfg := { s.cfg with
        src := Function.update s.cfg.src j { s.cfg.src j with shutOff := f l :: ls } } }

/-- `heatSources[0]->isVIP = heatSources[2]->isVIP = true`, src/HPWH.cc:3107. -/
def markVIPs (s : Sim n k) : Res (Sim n k) :=
  if 2 < k then
    .ok { s with cfg := { s.cfg with
      src := fun i => if i.val = 0 ∨ i.val = 2 then { s.cfg.src i with isVIP := true } else s.cfg.src i } }
  else .error .ub

/-- The adjustments of `configure`, src/HPWH.cc:3068-3115. -/
def adjust (s : Sim n k) : PresetGroup → Res (Sim n k)
  | .largeDraw => changeShutOff (fun l => { l with description := "large draw" }) s
  | .fixedSetpoint =>
    changeShutOff (fun l => { l with isEnteringWaterHighTempShutoff := true })
      { s with cfg := { s.cfg with setpointFixed := true } }
  | .enteringWater => changeShutOff (fun l => { l with isEnteringWaterHighTempShutoff := true }) s
  | .scalable => .ok { s with cfg := { s.cfg with canScale := true } }
  | .scalableEnteringWater => do
    let s1 ← markVIPs { s with cfg := { s.cfg with canScale := true } }
    changeShutOff (fun l => { l with isEnteringWaterHighTempShutoff := true }) s1
  | .other => .ok s

/-- `initFromJSON` and `initPreset`, src/HPWH.cc:3131-3168, after the JSON text is read. -/
def init (m : Libm) (pow : ℚ → ℚ → ℚ) (b : Btwxt) (g : PresetGroup) (base : Machine n k₀) (d : SimInput k) :
    Res (Machine n k) := do
  let M ← ofInput b base d
  let s ← adjust M.sim g
  let s' ← s.configure m pow
  return { M with sim := s' }

end Machine

end HPWH
