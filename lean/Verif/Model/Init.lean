import Verif.Model.Import
import Verif.Model.Logics
import Verif.Model.Poly

/-! # Heaters built from a few numbers

`initResistanceTank`, `initResistanceTankGeneric` and `initGeneric`, src/HPWHpresets.cc:14-328, with the
defaults they start from. All of them give the tank twelve nodes. `base` is the simulator they are called on,
with any number of nodes and heat sources: whatever the initialisers do not set keeps its value. The texts
(`description`, `productInformation`) are not part of the simulator's behaviour and are omitted. A call that ends
with an error leaves the simulator half changed; no state is modelled for it. -/

namespace HPWH

open _root_.HPWH.Units

/-- `Resistance::setup`, src/Resistance.cc:67-82, with its default size of the distribution: heat in one twelfth of
the tank. -/
def twelfth (node : ℕ) : WDist :=
  (if 1 / 12 * (node : ℚ) > 0 then [⟨1 / 12 * (node : ℚ), 0⟩] else []) ++ [⟨1 / 12 * ((node : ℚ) + 1), 1⟩] ++
    (if 1 / 12 * ((node : ℚ) + 1) < 1 then [⟨1, 0⟩] else [])

/-- A new resistance element after `Resistance::setup`, src/Resistance.cc:67-82, src/HPWH.cc:247-251. -/
def element {n k : ℕ} (node : ℕ) (power_W : ℚ) : SourceCfg n k :=
  { SourceCfg.blank (.resistance (power_W / 1000)) with heatDist := twelfth node }

namespace Sim

variable {n k n₀ k₀ : ℕ}

/-- `HPWH::setAllDefaults` and `Tank::setAllDefaults`, src/HPWH.cc:171-195 and src/Tank.cc:89-102, followed by
`setNumNodes` and adding the heat sources. Indices and sizes, derived later, are blank here. The temperatures
of the new nodes are 0 until they are set. -/
def fresh (base : Sim n₀ k₀) (src : Fin k → SourceCfg n k) : Sim n k where
  tank :=
    { base.tank.toTankCfg with
      volumeFixed := true
      inletHeight := 0
      inlet2Height := 0
      mixBelowFractionOnDraw := 1 / 3
      doInversionMixing := true
      doConduction := true
      hasHeatExchanger := false
      heatExchangerEffectiveness := 9 / 10
      fittingsUA := 0
      nodeTs := fun _ => 0
      standbyLosses_kJ := base.tank.standbyLosses_kJ
      outletT := base.tank.outletT }
  setpoint := base.setpoint
  inletT := -1
  haveInletT := false
  socControl := none
  soc := 1
  condenserInlet := base.condenserInlet
  condenserOutlet := base.condenserOutlet
  externalVolumeHeated := base.externalVolumeHeated
  cfg :=
    { src := src
      minutesPerStep := 1
      doTempDepression := false
      maxDepression := base.cfg.maxDepression
      timerLimitTOT := 60
      compressorIndex := none
      lowestElementIndex := none
      vipIndex := none
      setpointFixed := false
      isStorageTank := false
      canScale := false
      heightMap := [] }
  st := fun _ => .blank
  isHeating := false
  locationT := uninitialisedLocation
  timerTOT := 0
  energyRemoved_kWh := base.energyRemoved_kWh
  standbyLosses_kWh := base.standbyLosses_kWh
  extraEnergyInput_kWh := base.extraEnergyInput_kWh

/-- The end of every initialiser, e.g. src/HPWHpresets.cc:100-112. -/
def finish (m : Libm) (pow : ℚ → ℚ → ℚ) (s : Sim n k) : Res (Sim n k) := do
  let s1 ← s.calcDerivedValues m pow
  s1.checkInputs
  return { s1 with isHeating := decide (∃ i, (s1.st i).isOn = true) }

/-- The tank of the initialisers: size (src/HPWHpresets.cc:44-46), setpoint, temperatures, mixing and heat loss,
src/HPWHpresets.cc:43-54, 89-98. -/
def withTank (pow : ℚ → ℚ → ℚ) (s : Sim n k) (vol_L UA : ℚ) : Res (Sim n k) := do
  let s1 : Sim n k := { s with tank := { s.tank with volumeFixed := false }, setpoint := F_TO_C 127 }
  let s2 ← s1.setTankSize pow .L vol_L false
  let s3 := s2.resetTankToSetpoint
  return { s3 with tank := { s3.tank with mixesOnDraw := true, UA := UA } }

end Sim

/-! ## Resistance tanks -/

/-- `resistiveElementTop` of the resistance tanks, src/HPWHpresets.cc:61-70. -/
def topElement {k : ℕ} (power_W : ℚ) : SourceCfg 11 k :=
  { element 8 power_W with turnOn := [Logics.topThird (dF_TO_dC 20)], isVIP := true }

/-- `resistiveElementBottom` of the resistance tanks, src/HPWHpresets.cc:73-78. -/
def bottomElement {k : ℕ} (power_W : ℚ) : SourceCfg 11 k :=
  { element 0 power_W with turnOn := [Logics.bottomThird (dF_TO_dC 40), Logics.topNode (dF_TO_dC 10)] }

/-- Both elements, src/HPWHpresets.cc:61-83. -/
def bothElements (upper_W lower_W : ℚ) : Fin 2 → SourceCfg 11 2 :=
  ![{ topElement upper_W with followedBy := some 1 }, bottomElement lower_W]

/-- The heat loss coefficient from the energy factor, src/HPWHpresets.cc:85-98. -/
def lossFromEF (EF lower_W : ℚ) : ℚ :=
  let recoveryEfficiency : ℚ := 98 / 100
  let numerator := 1 / EF - 1 / recoveryEfficiency
  let temp := 1 / (recoveryEfficiency * lower_W * (341443 / 100000))
  let denominator := 135 / 2 * (24 / 41094 - temp)
  let UA := UAf_TO_UAc (numerator / denominator)
  if UA < 0 then 0 else UA

/-- The heat loss coefficient from the R-value, src/HPWHpresets.cc:175-186. -/
def lossFromR (pow : ℚ → ℚ → ℚ) (vol_L R : ℚ) : ℚ :=
  let UA := tankSurfaceArea pow vol_L / R * secPerHr / 1000
  if UA < 0 then 0 else UA

/-- The rest of the initialisation of a resistance tank. -/
def elementTank {n₀ k₀ k : ℕ} (m : Libm) (pow : ℚ → ℚ → ℚ) (base : Sim n₀ k₀) (src : Fin k → SourceCfg 11 k)
    (canScale : Bool) (vol_L UA : ℚ) : Res (Sim 11 k) := do
  let s := base.fresh src
  let s1 ← ({ s with cfg := { s.cfg with canScale := canScale } } : Sim 11 k).withTank pow vol_L UA
  s1.finish m pow

/-- The result with its number of heat sources. -/
def packed {k : ℕ} (r : Res (Sim 11 k)) : Res (Σ k, Sim 11 k) := r.map fun s => ⟨k, s⟩

/-- `initResistanceTank(tankVol_L, energyFactor, upperPower_W, lowerPower_W)`, src/HPWHpresets.cc:20-113. -/
def initResistanceTank {n₀ k₀ : ℕ} (m : Libm) (pow : ℚ → ℚ → ℚ) (base : Sim n₀ k₀)
    (vol_L EF upper_W lower_W : ℚ) : Res (Σ k, Sim 11 k) :=
  if lower_W < 550 then .error .error
  else if upper_W < 0 then .error .error
  else if EF ≤ 0 then .error .error
  else if upper_W > 0 then
    packed (elementTank m pow base (bothElements upper_W lower_W) false vol_L (lossFromEF EF lower_W))
  else packed (elementTank m pow base ![bottomElement lower_W] false vol_L (lossFromEF EF lower_W))

/-- `initResistanceTank()`, src/HPWHpresets.cc:14-18. -/
def initResistanceTankDefault {n₀ k₀ : ℕ} (m : Libm) (pow : ℚ → ℚ → ℚ) (base : Sim n₀ k₀) :
    Res (Σ k, Sim 11 k) :=
  initResistanceTank m pow base (GAL_TO_L (95 / 2)) (95 / 100) 4500 4500

/-- `initResistanceTankGeneric(tankVol_L, rValue_m2KperW, upperPower_W, lowerPower_W)`,
src/HPWHpresets.cc:115-205. -/
def initResistanceTankGeneric {n₀ k₀ : ℕ} (m : Libm) (pow : ℚ → ℚ → ℚ) (base : Sim n₀ k₀)
    (vol_L R upper_W lower_W : ℚ) : Res (Σ k, Sim 11 k) :=
  if lower_W < 0 then .error .error
  else if upper_W < 0 then .error .error
  else if R ≤ 0 then .error .error
  else
    let UA := lossFromR pow vol_L R
    if upper_W > 0 then
      if lower_W > 0 then packed (elementTank m pow base (bothElements upper_W lower_W) true vol_L UA)
      else packed (elementTank m pow base ![topElement upper_W] true vol_L UA)
    else if lower_W > 0 then packed (elementTank m pow base ![bottomElement lower_W] true vol_L UA)
    else packed (elementTank m pow base ![] true vol_L UA)

/-! ## The generic heat pump -/

/-- `PerformancePolySet::make`, src/HPWH.hh:1293-1298. The function throws where `evaluate` fails; here a heat pump
without performance. -/
def PolySet.make (ps : PolySet) : ℚ → ℚ → ℚ → Perf := fun _ externalT heatSourceT =>
  match ps.evaluate externalT heatSourceT with
  | .ok p => p
  | .error _ => ⟨0, 0, 0⟩

/-- `perfPolySet` of `initGeneric` before scaling, src/HPWHpresets.cc:237-239. -/
def genericBase : PolySet :=
  [⟨50, [187064124 / 1000000, 1939747 / 1000000, 0], [54977772 / 10000000, -(243008 / 10000000), 0]⟩,
   ⟨70, [1480418 / 10000, 2553291 / 1000000, 0], [7207307 / 1000000, -(335265 / 10000000), 0]⟩]

/-- `genericFudge`, src/HPWHpresets.cc:285-290. -/
def genericFudge (EF : ℚ) : ℚ :=
  let uefSpan : ℚ := 34 / 10 - 2
  let fUEF := (EF - 2) / uefSpan
  (1 - fUEF) * (7 / 10) + fUEF * (95 / 100)

/-- The scaled polynomials, src/HPWHpresets.cc:292-306. -/
def genericPolys (f : ℚ) : PolySet :=
  genericBase.map fun p => { p with cop := p.cop.map (· * f), input := p.input.map (· / f) }

/-- `MAXOUTLET_R134A`, src/HPWH.cc:71. -/
def maxOutletR134A : ℚ := F_TO_C 160

/-- The compressor of the generic heat pump, src/HPWHpresets.cc:227-248, 262-263, 304-307; `d` is its
distribution. -/
def genericCompressor (f : ℚ) (d : WDist) : SourceCfg 11 3 :=
  { SourceCfg.blank (.condenser
      { CondCfg.blank with
        hysteresis := dF_TO_dC 2
        configuration := .wrapped
        maxSetpoint := maxOutletR134A
        evaluate := (genericPolys f).make }) with
    heatDist := d
    minT := F_TO_C 45
    maxT := F_TO_C 120
    turnOn := [Logics.bottomThird (dF_TO_dC (336883 / 10000)), Logics.standby (dF_TO_dC (12392 / 1000))]
    backup := some 1 }

/-- The heat sources of the generic heat pump, src/HPWHpresets.cc:222-263, 304-311; `HeatSource::setCondensity`
(src/HPWHHeatSource.cc:231-234) builds the distributions of bottom element and compressor. -/
def genericSources (f resUse_C : ℚ) : Res (Fin 3 → SourceCfg 11 3) := do
  let dc ← WDist.ofNodes [1, 0, 0]
  let db ← WDist.ofNodes [0, 1 / 5, 4 / 5, 0, 0, 0, 0, 0, 0, 0, 0, 0]
  return ![{ element 6 4500 with isVIP := true, turnOn := [Logics.topThird resUse_C], followedBy := some 1 },
    { element 0 4000 with
      heatDist := db
      shutOff := [Logics.bottomTwelfthMaxTemp (F_TO_C (861111 / 10000))]
      backup := some 2
      followedBy := some 2 },
    genericCompressor f dc]

/-- The heat loss coefficient from the volume, src/HPWHpresets.cc:273-277. -/
def genericLoss (pow : ℚ → ℚ → ℚ) (vol_L : ℚ) : ℚ :=
  let v1 := 75156316175 / 10000000000 * pow (vol_L / GAL_TO_L 1) (33 / 100) + 59995357658 / 10000000000
  76183819 / 10000000000 * v1 * v1

/-- `initGeneric(tankVol_L, energyFactor, resUse_C)`, src/HPWHpresets.cc:207-328. A factor of zero makes the input
power infinite or NaN. -/
def initGeneric {n₀ k₀ : ℕ} (m : Libm) (pow : ℚ → ℚ → ℚ) (base : Sim n₀ k₀) (vol_L EF resUse_C : ℚ) :
    Res (Sim 11 3) := do
  let f := genericFudge EF
  if f = 0 then .error .nan
  else
    let src ← genericSources f resUse_C
    let s1 ← (base.fresh src).withTank pow vol_L (genericLoss pow vol_L)
    s1.finish m pow

end HPWH
