import Verif.Model.Sim
import Mathlib.Data.List.Sort

/-! # Settings of the simulator: units, setpoint, tank size, ports, controls, capacities, and the values
derived from them (src/HPWH.cc:822-1573, 1844-1990, 2361-2600, 2685-3130; src/Tank.cc:104-176, 603-622) -/

namespace HPWH

open _root_.HPWH.Units

/-- `HPWH::UNITS`, src/HPWH.hh:325-347. -/
inductive UnitTag
  | C | F | KWH | BTU | KJ | KW | BTUperHr | GAL | L | kJperHrC | BTUperHrF | FT | M | FT2 | M2
  | MIN | SEC | HR | GPM | LPS
  deriving DecidableEq

/-! ## Unit switches -/

/-- A temperature given in some unit, e.g. src/HPWH.cc:824-834. -/
def tempToC : UnitTag → ℚ → Res ℚ
  | .C, x => .ok x
  | .F, x => .ok (F_TO_C x)
  | _, _ => .error .error

/-- A temperature reported in some unit, e.g. src/HPWH.cc:853-864. -/
def tempFromC : UnitTag → ℚ → Res ℚ
  | .C, x => .ok x
  | .F, x => .ok (C_TO_F x)
  | _, _ => .error .error

/-- A volume given in some unit, e.g. src/HPWH.cc:1085-1094. -/
def volumeToL : UnitTag → ℚ → Res ℚ
  | .L, x => .ok x
  | .GAL, x => .ok (GAL_TO_L x)
  | _, _ => .error .error

/-- A volume reported in some unit, e.g. src/HPWH.cc:2025-2037. -/
def volumeFromL : UnitTag → ℚ → Res ℚ
  | .L, x => .ok x
  | .GAL, x => .ok (L_TO_GAL x)
  | _, _ => .error .error

/-- A heat loss coefficient given in some unit, e.g. src/HPWH.cc:1199-1208. -/
def uaToMetric : UnitTag → ℚ → Res ℚ
  | .kJperHrC, x => .ok x
  | .BTUperHrF, x => .ok (UAf_TO_UAc x)
  | _, _ => .error .error

/-- A heat loss coefficient reported in some unit, e.g. src/HPWH.cc:1214-1224. -/
def uaFromMetric : UnitTag → ℚ → Res ℚ
  | .kJperHrC, x => .ok x
  | .BTUperHrF, x => .ok (x / UAf_TO_UAc 1)
  | _, _ => .error .error

/-- An energy reported in some unit, e.g. src/HPWH.cc:1933-1947. -/
def energyFromKWH : UnitTag → ℚ → Res ℚ
  | .KWH, x => .ok x
  | .BTU, x => .ok (KWH_TO_BTU x)
  | .KJ, x => .ok (KWH_TO_KJ x)
  | _, _ => .error .error

/-! ## Tank size -/

/-- `ASPECTRATIO`, src/Tank.hh:9. -/
def aspectRatio : ℚ := 475 / 100

/-- The literal `3.14159` of src/Tank.cc:149, 171-173. -/
def piLit : ℚ := 314159 / 100000

/-- The radius in feet for a volume in litres, src/Tank.cc:148-149, 170-171. `pow` is the library
function. -/
def radiusFt (pow : ℚ → ℚ → ℚ) (volume_L : ℚ) : ℚ :=
  pow (L_TO_FT3 volume_L / piLit / aspectRatio) (1 / 3)

/-- `Tank::getRadius_m`, src/Tank.cc:143-153. -/
def tankRadius (pow : ℚ → ℚ → ℚ) (volume_L : ℚ) : ℚ :=
  if volume_L ≥ 0 then FT_TO_M (radiusFt pow volume_L) else -1

/-- `Tank::getSurfaceArea_m2`, src/Tank.cc:167-176; the square `pow(radius_ft, 2)` is exact. -/
def tankSurfaceArea (pow : ℚ → ℚ → ℚ) (volume_L : ℚ) : ℚ :=
  FT2_TO_M2 (2 * piLit * radiusFt pow volume_L ^ 2 * (aspectRatio + 1))

/-- `Tank::setNodeNumFromFractionalHeight` and `HPWH::setNodeNumFromFractionalHeight`,
src/Tank.cc:603-612, src/HPWH.cc:1287-1296: the node for a fractional height in a tank of `N` nodes. -/
def nodeFromFraction (N : ℕ) (f : ℚ) : Res ℕ :=
  if f > 1 ∨ f < 0 then .error .error
  else .ok (if ⌊(N : ℚ) * f⌋₊ = N then N - 1 else ⌊(N : ℚ) * f⌋₊)

namespace Tank

variable {n : ℕ}

/-- `Tank::calcSizeConstants`, src/Tank.cc:104-119. A tank without volume has no area to take
fractions of. -/
def calcSizeConstants (pow : ℚ → ℚ → ℚ) (t : Tank n) : Res (Tank n) :=
  let rad := tankRadius pow t.volume_L
  let height := aspectRatio * rad
  if height + rad = 0 then .error .nan
  else
    .ok { t with
      nodeVolume_L := t.volume_L / t.numNodes
      nodeCp := cpWater * rhoWater * (t.volume_L / t.numNodes)
      nodeHeight_m := height / t.numNodes
      fracAreaTop := rad / (2 * (height + rad))
      fracAreaSide := height / (height + rad)
      nodeHeatExchangerEffectiveness :=
        1 - pow (1 - t.heatExchangerEffectiveness) (1 / t.numNodes) }

/-- `Tank::setVolume_L`, src/Tank.cc:123-135. -/
def setVolume (pow : ℚ → ℚ → ℚ) (t : Tank n) (volume_L : ℚ) (force : Bool) : Res (Tank n) :=
  if t.volumeFixed ∧ force = false then .error .error
  else if volume_L ≤ 0 then .error .error
  else calcSizeConstants pow { t with volume_L := volume_L }

/-- `Tank::setVolumeAndAdjustUA`, src/Tank.cc:157-165. A current volume without surface divides by
zero. -/
def setVolumeAndAdjustUA (pow : ℚ → ℚ → ℚ) (t : Tank n) (volume_L : ℚ) (force : Bool) :
    Res (Tank n) := do
  let t1 ← t.setVolume pow volume_L force
  if tankSurfaceArea pow t.volume_L = 0 then .error .nan
  else
    let t2 : Tank n := { t1 with
      UA := t1.UA * (tankSurfaceArea pow volume_L / tankSurfaceArea pow t.volume_L) }
    t2.calcSizeConstants pow

/-- `Tank::setInletByFraction`, src/Tank.cc:614-617. -/
def setInletByFraction (t : Tank n) (f : ℚ) : Res (Tank n) := do
  let j ← nodeFromFraction (n + 1) f
  return { t with inletHeight := j }

/-- `Tank::setInlet2ByFraction`, src/Tank.cc:619-622. -/
def setInlet2ByFraction (t : Tank n) (f : ℚ) : Res (Tank n) := do
  let j ← nodeFromFraction (n + 1) f
  return { t with inlet2Height := j }

/-- `Tank::setNodeTs_C`, src/Tank.cc:186-196. -/
def setNodeTs (t : Tank n) (xs : List ℚ) : Res (Tank n) :=
  if xs = [] then .error .error
  else do
    let T ← resample t.nodeTs (fun i : Fin xs.length => xs.get i)
    return { t with nodeTs := T }

end Tank

/-! ## Values derived from the heat sources -/

/-- `isACompressor`. -/
def SourceKind.isCompressor : SourceKind → Bool
  | .condenser _ => true
  | .resistance _ => false

/-- Loop of `lowestNormalizedHeight`, src/HPWH.hh:480-489. A zero maximum height gives NaN. -/
def WDist.lowestHeightLoop (maxH : ℚ) : (prev : ℚ) → WDist → Res ℚ
  | _, [] => .ok 0
  | prev, p :: ps =>
    if p.weight > 0 then if maxH = 0 then .error .nan else .ok (prev / maxH)
    else lowestHeightLoop maxH p.height ps

/-- `lowestNormalizedHeight`, src/HPWH.hh:479-490. -/
def WDist.lowestNormalizedHeight (d : WDist) : Res ℚ :=
  if hd : d = [] then .ok 0 else WDist.lowestHeightLoop (d.maximumHeight hd) 0 d

/-- The value `findLowestNode` returns is a node of the tank. -/
theorem WDist.lowestLoop_lt (d : WDist) (N : ℕ) (j room : ℕ) (h : j + room ≤ N) (hN : 0 < N) :
    d.lowestLoop N j room < N := by
  induction room generalizing j with
  | zero => simpa [WDist.lowestLoop] using hN
  | succ r ih =>
    rw [WDist.lowestLoop]
    split
    · split
      · omega
      · exact ih _ (by omega)
    · exact ih _ (by omega)

/-- Variables of the index search in `calcDerivedHeatingValues`, src/HPWH.cc:2726-2731. -/
structure Indices (k : ℕ) where
  compressor : Option (Fin k)
  lowest : Option (Fin k)
  highest : Option (Fin k)
  vip : Option (Fin k)
  lowestPos : ℚ
  highestPos : ℚ

/-- Body of the index search, src/HPWH.cc:2733-2765. -/
def indexStep {n k : ℕ} (src : Fin k → SourceCfg n k) (a : Indices k) (i : Fin k) :
    Res (Indices k) :=
  match (src i).kind with
  | .condenser _ => .ok { a with compressor := some i }
  | .resistance _ => do
    let pos ← (src i).heatDist.lowestNormalizedHeight
    return {
      compressor := a.compressor
      vip := if (src i).isVIP ∧ a.vip = none then some i else a.vip
      lowest := if pos < a.lowestPos then some i else a.lowest
      lowestPos := if pos < a.lowestPos then pos else a.lowestPos
      highest := if pos ≥ a.highestPos then some i else a.highest
      highestPos := if pos ≥ a.highestPos then pos else a.highestPos }

/-- The index search of `calcDerivedHeatingValues`, src/HPWH.cc:2726-2765. -/
def findIndices {n k : ℕ} (src : Fin k → SourceCfg n k) : Res (Indices k) :=
  (List.finRange k).foldlM (indexStep src) ⟨none, none, none, none, 1, 0⟩

/-- `getResistancePosition`, src/HPWH.cc:2585-2598 (an index that is a resistance element); the cast
to `int` of a non-negative value. -/
def resistancePosition (d : WDist) : Res ℕ := do
  let h ← d.lowestNormalizedHeight
  return ⌊12 * h⌋₊

/-- `mapResRelativePosToHeatSources`, src/HPWH.cc:2781-2801. `std::sort` leaves the order of elements at
the same position open; here they keep their order. The theorems about the map only use that it is
sorted and lists every element once. -/
def mapResistances {n k : ℕ} (src : Fin k → SourceCfg n k) : Res (List (Fin k × ℕ)) := do
  let l ← ((List.finRange k).filter fun i => !(src i).kind.isCompressor).mapM
    fun i => do
      let p ← resistancePosition (src i).heatDist
      return (i, p)
  return l.insertionSort fun a b => a.2 ≤ b.2

namespace Sim

variable {n k : ℕ}

/-- `calcDerivedValues` and `calcDerivedHeatingValues`, src/HPWH.cc:2686-2779. The index of the highest
element is not used anywhere and is not kept. -/
def calcDerivedValues (m : Libm) (pow : ℚ → ℚ → ℚ) (s : Sim n k) : Res (Sim n k) := do
  let ix ← findIndices s.cfg.src
  let tank ← s.tank.calcSizeConstants pow
  let map ← mapResistances s.cfg.src
  return { s with
    tank := tank
    cfg := { s.cfg with
      src := fun i => { s.cfg.src i with
        shrinkageT := findShrinkage m.log (s.cfg.src i).heatDist (n + 1)
        lowestNode := ⟨(s.cfg.src i).heatDist.findLowestNode (n + 1),
          WDist.lowestLoop_lt _ _ _ _ (by omega) (by omega)⟩
        depressesTemperature := (s.cfg.src i).kind.isCompressor }
      compressorIndex := ix.compressor
      lowestElementIndex := ix.lowest
      vipIndex := ix.vip
      heightMap := map } }

/-! ## Setpoint -/

/-- The largest setpoint `isNewSetpointPossible` reports, in °C, src/HPWH.cc:896, 913, 929-930, 947. -/
def maxAllowedSetpoint (s : Sim n k) : ℚ :=
  if s.cfg.setpointFixed then s.setpoint
  else
    match s.cfg.lowestElementIndex with
    | some _ => 100
    | none =>
      match s.cfg.compressorIndex with
      | some j =>
        match (s.cfg.src j).kind with
        | .condenser c => c.maxSetpoint - c.hotSideOffset
        | .resistance _ => -27315 / 100
      | none => -27315 / 100

/-- `isNewSetpointPossible`, src/HPWH.cc:890-985: verdict and largest setpoint. -/
def isNewSetpointPossible (s : Sim n k) (u : UnitTag) (x : ℚ) : Res (Bool × ℚ) := do
  let c ← tempToC u x
  let m ← tempFromC u s.maxAllowedSetpoint
  return (s.newSetpointPossible c, m)

/-- `setSetpoint`, src/HPWH.cc:822-849. -/
def setSetpointIn (s : Sim n k) (u : UnitTag) (x : ℚ) : Res (Sim n k) := do
  let c ← tempToC u x
  s.setSetpoint c

/-- `getSetpoint`, src/HPWH.cc:851-866. -/
def getSetpoint (s : Sim n k) (u : UnitTag) : Res ℚ := tempFromC u s.setpoint

/-! ## Tank settings -/

/-- `setTankSize`, src/HPWH.cc:1174-1188. -/
def setTankSize (pow : ℚ → ℚ → ℚ) (s : Sim n k) (u : UnitTag) (x : ℚ) (force : Bool) :
    Res (Sim n k) := do
  let v ← volumeToL u x
  let t ← s.tank.setVolume pow v force
  let t' ← t.calcSizeConstants pow
  return { s with tank := t' }

/-- `setTankSize_adjustUA`, src/HPWH.cc:1081-1096. -/
def setTankSizeAdjustUA (pow : ℚ → ℚ → ℚ) (s : Sim n k) (u : UnitTag) (x : ℚ) (force : Bool) :
    Res (Sim n k) := do
  let v ← volumeToL u x
  let t ← s.tank.setVolumeAndAdjustUA pow v force
  return { s with tank := t }

/-- `getTankSize`, src/HPWH.cc:2024-2039. -/
def getTankSize (s : Sim n k) (u : UnitTag) : Res ℚ := volumeFromL u s.tank.volume_L

/-- `getTankSurfaceArea`, src/HPWH.cc:1125-1139. -/
def getTankSurfaceArea (pow : ℚ → ℚ → ℚ) (s : Sim n k) : UnitTag → Res ℚ
  | .M2 => .ok (tankSurfaceArea pow s.tank.volume_L)
  | .FT2 => .ok (M2_TO_FT2 (tankSurfaceArea pow s.tank.volume_L))
  | _ => .error .error

/-- `getTankRadius`, src/HPWH.cc:1141-1170. In feet the conversion goes the wrong way; other units are
not rejected. -/
def getTankRadius (pow : ℚ → ℚ → ℚ) (s : Sim n k) : UnitTag → ℚ
  | .FT => FT_TO_M (tankRadius pow s.tank.volume_L)
  | _ => tankRadius pow s.tank.volume_L

/-- `setUA`, src/HPWH.cc:1197-1210. -/
def setUA (s : Sim n k) (u : UnitTag) (x : ℚ) : Res (Sim n k) := do
  let v ← uaToMetric u x
  return { s with tank := { s.tank with UA := v } }

/-- `getUA`, src/HPWH.cc:1212-1225. -/
def getUA (s : Sim n k) (u : UnitTag) : Res ℚ := uaFromMetric u s.tank.UA

/-- `setFittingsUA`, src/HPWH.cc:1227-1240. -/
def setFittingsUA (s : Sim n k) (u : UnitTag) (x : ℚ) : Res (Sim n k) := do
  let v ← uaToMetric u x
  return { s with tank := { s.tank with fittingsUA := v } }

/-- `getFittingsUA`, src/HPWH.cc:1242-1255. -/
def getFittingsUA (s : Sim n k) (u : UnitTag) : Res ℚ := uaFromMetric u s.tank.fittingsUA

/-- `setInletByFraction`, src/HPWH.cc:2419-2422. -/
def setInletByFraction (s : Sim n k) (f : ℚ) : Res (Sim n k) := do
  let t ← s.tank.setInletByFraction f
  return { s with tank := t }

/-- `setInlet2ByFraction`, src/HPWH.cc:2424-2427. -/
def setInlet2ByFraction (s : Sim n k) (f : ℚ) : Res (Sim n k) := do
  let t ← s.tank.setInlet2ByFraction f
  return { s with tank := t }

/-- `setTankLayerTemperatures`, src/HPWH.cc:1040-1057. -/
def setTankLayerTemperatures (s : Sim n k) (u : UnitTag) (xs : List ℚ) : Res (Sim n k) := do
  let ys ← xs.mapM (tempToC u)
  let t ← s.tank.setNodeTs ys
  return { s with tank := t }

/-- `getTankNodeTemp`, src/HPWH.cc:1766-1780; an index out of range reads past the vector. -/
def getTankNodeTemp (s : Sim n k) (i : ℕ) (u : UnitTag) : Res ℚ :=
  if h : i < n + 1 then tempFromC u (s.tank.nodeTs ⟨i, h⟩) else .error .ub

/-- `resetTankToSetpoint`, src/HPWH.cc:1033. -/
def resetTankToSetpoint (s : Sim n k) : Sim n k :=
  { s with tank := { s.tank with nodeTs := fun _ => s.setpoint } }

/-! ## Heat sources -/

/-- Replace the settings of one heat source. -/
def setSrc (s : Sim n k) (i : Fin k) (x : SourceCfg n k) : Sim n k :=
  { s with cfg := { s.cfg with src := Function.update s.cfg.src i x } }

/-- The compressor (`heatSources[compressorIndex]`) with its own settings. An index that is not a
compressor would be misinterpreted; `calcDerivedValues` sets no such index. -/
def compressor (s : Sim n k) : Res (Fin k × CondCfg) :=
  match s.cfg.compressorIndex with
  | none => .error .error
  | some j =>
    match (s.cfg.src j).kind with
    | .condenser c => .ok (j, c)
    | .resistance _ => .error .ub

/-- `hasExternalHeatSource`, src/HPWH.cc:2299-2315: the first compressor, if the one at
`compressorIndex` is external. -/
def externalIndex (s : Sim n k) : Option (Fin k) :=
  match s.compressor with
  | .ok (_, c) =>
    if c.configuration = .external then
      (List.finRange k).find? fun i => (s.cfg.src i).kind.isCompressor
    else none
  | .error _ => none

/-- `setExternalInletHeightByFraction`, src/HPWH.cc:1257-1285. -/
def setExternalInlet (s : Sim n k) (f : ℚ) : Res (Sim n k) :=
  match s.externalIndex with
  | none => .error .error
  | some i => do
    let j ← nodeFromFraction (n + 1) f
    if h : j < n + 1 then return s.setSrc i { s.cfg.src i with externalInlet := ⟨j, h⟩ }
    else .error .ub

/-- `setExternalOutletHeightByFraction`, src/HPWH.cc:1262-1285. -/
def setExternalOutlet (s : Sim n k) (f : ℚ) : Res (Sim n k) :=
  match s.externalIndex with
  | none => .error .error
  | some i => do
    let j ← nodeFromFraction (n + 1) f
    if h : j < n + 1 then return s.setSrc i { s.cfg.src i with externalOutlet := ⟨j, h⟩ }
    else .error .ub

/-- `getExternalInletHeight`, src/HPWH.cc:1298-1308. -/
def getExternalInlet (s : Sim n k) : Res ℕ :=
  match s.externalIndex with
  | none => .error .error
  | some i => .ok (s.cfg.src i).externalInlet

/-- `getExternalOutletHeight`, src/HPWH.cc:1310-1319. -/
def getExternalOutlet (s : Sim n k) : Res ℕ :=
  match s.externalIndex with
  | none => .error .error
  | some i => .ok (s.cfg.src i).externalOutlet

/-- `setAirFlowFreedom`, src/HPWH.cc:1061-1077. -/
def setAirFlowFreedom (s : Sim n k) (x : ℚ) : Res (Sim n k) :=
  if x < 0 ∨ x > 1 then .error .error
  else .ok { s with cfg := { s.cfg with
    src := fun i => if (s.cfg.src i).kind.isCompressor
      then { s.cfg.src i with airflowFreedom := x } else s.cfg.src i } }

/-- `setTimerLimitTOT`, src/HPWH.cc:1321-1328. -/
def setTimerLimitTOT (s : Sim n k) (x : ℚ) : Res (Sim n k) :=
  if x > 24 * 60 ∨ x < 0 then .error .error
  else .ok { s with cfg := { s.cfg with timerLimitTOT := x } }

/-- `setMaxTempDepression`, src/HPWH.cc:1334-1347. A difference in °F is converted as if it were a
temperature. (With other units the value is stored before the error is reported; an error here is only
an error.) -/
def setMaxTempDepression (s : Sim n k) (u : UnitTag) (x : ℚ) : Res (Sim n k) := do
  let v ← tempToC u x
  return { s with cfg := { s.cfg with maxDepression := v } }

/-- `MINSINGLEPASSLIFT`, src/HPWH.cc:74. -/
def minSinglePassLift : ℚ := dF_TO_dC 15

/-- Change of the first entering-water shut-off in a set, src/HPWH.cc:1416-1425. -/
def setEnteringWater (x : ℚ) (absolute : Bool) : List Logic → List Logic
  | [] => []
  | l :: ls =>
    if l.isEnteringWaterHighTempShutoff then
      { l with
        decisionPoint := x
        kind := match l.kind with
          | .temp _ d => .temp absolute d
          | .soc a b c d => .soc a b c d } :: ls
    else l :: setEnteringWater x absolute ls

/-- `hasEnteringWaterHighTempShutOff` and `setEnteringWaterHighTempShutOff`, src/HPWH.cc:1349-1426. A relative temperature in °F is converted
as if it were a temperature. An entering-water shut-off is always temperature based. -/
def setEnteringWaterHighTempShutOff (s : Sim n k) (u : UnitTag) (x : ℚ) (absolute : Bool) (i : ℤ) :
    Res (Sim n k) :=
  if h : 0 ≤ i ∧ i < k then
    let j : Fin k := ⟨i.toNat, by omega⟩
    if (s.cfg.src j).shutOff.any (·.isEnteringWaterHighTempShutoff) then do
      let v ← tempToC u x
      if (if absolute then s.setpoint - v < minSinglePassLift else v < minSinglePassLift) then
        .error .error
      else
        return s.setSrc j { s.cfg.src j with
          shutOff := setEnteringWater v absolute (s.cfg.src j).shutOff }
    else .error .error
  else .error .error

/-! ## State-of-charge control -/

/-- `turnOnSoC`, src/HPWH.cc:1529-1538. -/
def turnOnSoC (target hyst minUseful : ℚ) (constantMains : Bool) (mains : ℚ) : Logic where
  kind := .soc minUseful (-hyst) constantMains mains
  decisionPoint := target
  cmp := .less
  isEnteringWaterHighTempShutoff := false
  checkStandby := false
  description := "SoC Turn On"

/-- `shutOffSoC`, src/HPWH.cc:1540-1555. -/
def shutOffSoC (target hyst minUseful : ℚ) (constantMains : Bool) (mains : ℚ) : Logic where
  kind := .soc minUseful hyst constantMains mains
  decisionPoint := target
  cmp := .greater
  isEnteringWaterHighTempShutoff := false
  checkStandby := false
  description := "SoC Shut Off"

/-- `switchToSoCControls`, src/HPWH.cc:1469-1527; `canUseSoCControls`, src/HPWH.cc:1459-1467. The
settings that `calcAndSetSoCFraction` reads from the first turn-on logic are kept in `socControl`. -/
def switchToSoC (s : Sim n k) (u : UnitTag) (target hyst minUseful : ℚ) (constantMains : Bool)
    (mains : ℚ) : Res (Sim n k) := do
  let c ← s.compressor
  if c.2.configuration ≠ .external then .error .error
  else
    let useful ← tempToC u minUseful
    let cold ← tempToC u mains
    if cold ≥ useful then .error .error
    else
      return { s with
        socControl := some ⟨useful, constantMains, cold⟩
        cfg := { s.cfg with
          src := fun i => { s.cfg.src i with
            turnOn := [turnOnSoC target hyst useful constantMains cold]
            shutOff := (s.cfg.src i).shutOff.filter (·.isEnteringWaterHighTempShutoff) ++
              [shutOffSoC target hyst useful constantMains cold] } } }

/-- `setTargetSoCFraction`, src/HPWH.cc:1428-1455. -/
def setTargetSoC (s : Sim n k) (target : ℚ) : Res (Sim n k) :=
  if s.socControl = none then .error .error
  else if target < 0 then .error .error
  else .ok { s with cfg := { s.cfg with
    src := fun i => { s.cfg.src i with
      turnOn := (s.cfg.src i).turnOn.map fun l => { l with decisionPoint := target }
      shutOff := (s.cfg.src i).shutOff.map fun l =>
        if l.isEnteringWaterHighTempShutoff then l else { l with decisionPoint := target } } } }

/-! ## Capacities -/

/-- `UNITS_BTUperHr` or `UNITS_KW`, src/HPWH.cc:1912-1921. -/
def powerFromW : UnitTag → ℚ → Res ℚ
  | .BTUperHr, x => .ok (W_TO_BTUperH x)
  | .KW, x => .ok (W_TO_KW x)
  | _, _ => .error .error

/-- The performance `getCompressorCapacity` evaluates, src/HPWH.cc:1886-1910, and the simulator
afterwards: for an external compressor the setpoint is set to the outlet temperature and back, each if
possible. -/
def capacityPerf (s : Sim n k) (j : Fin k) (c : CondCfg) (air inlet out : ℚ) :
    Res (Perf × Sim n k) :=
  let flow := (s.cfg.src j).airflowFreedom
  if c.configuration = .external then do
    let s1 : Sim n k := if s.newSetpointPossible out then { s with setpoint := out } else s
    let perf ← c.getPerformance flow s1.setpoint air
      (if c.isMultipass then (out + inlet) / 2 else inlet)
    let s2 : Sim n k := if s1.newSetpointPossible s.setpoint
      then { s1 with setpoint := s.setpoint } else s1
    return (perf, s2)
  else do
    let perf ← c.getPerformance flow s.setpoint air inlet
    return (perf, s)

/-- `getCompressorCapacity`, src/HPWH.cc:1844-1922: the capacity and the simulator afterwards. -/
def getCompressorCapacity (s : Sim n k) (air inlet out : ℚ) (pwr temp : UnitTag) :
    Res (ℚ × Sim n k) := do
  let (j, c) ← s.compressor
  let airC ← tempToC temp air
  let inletC ← tempToC temp inlet
  let outC ← tempToC temp out
  if airC + tolT < (s.cfg.src j).minT ∨ airC > (s.cfg.src j).maxT + tolT then .error .error
  else if outC > c.maxSetpoint - c.hotSideOffset + tolT then .error .error
  else
    let r ← s.capacityPerf j c airC inletC outC
    let x ← powerFromW pwr r.1.outputPower_W
    return (x, r.2)

/-- `setScaleCapacityCOP`, src/HPWH.cc:2431-2448. -/
def setScale (s : Sim n k) (capacity cop : ℚ) : Res (Sim n k) :=
  if s.cfg.canScale = false then .error .error
  else do
    let (j, c) ← s.compressor
    if capacity ≤ 0 ∨ cop ≤ 0 then .error .error
    else return s.setSrc j { s.cfg.src j with
      kind := .condenser { c with
        inputPowerScale := c.inputPowerScale * capacity
        copScale := c.copScale * cop } }

/-- `setCompressorOutputCapacity`, src/HPWH.cc:2450-2461. -/
def setCompressorOutputCapacity (s : Sim n k) (newCapacity air inlet out : ℚ)
    (pwr temp : UnitTag) : Res (Sim n k) := do
  let (old, s1) ← s.getCompressorCapacity air inlet out pwr temp
  if old = 0 then .error .nan
  else s1.setScale (newCapacity / old) 1

/-- Power of a resistance element in watts (`getPower_W`, src/Resistance.hh:33); calling it on another
kind of heat source would misinterpret it, and no caller does. -/
def elementPowerW (s : Sim n k) (i : Fin k) : ℚ :=
  match (s.cfg.src i).kind with
  | .resistance p => 1000 * p
  | .condenser _ => 0

/-- `setPower_W`, src/Resistance.hh:34, on the resistance elements among the heat sources selected by
`which`. -/
def setPowerWhere (s : Sim n k) (watts : ℚ) (which : Fin k → Bool) : Sim n k :=
  { s with cfg := { s.cfg with
    src := fun i =>
      match (s.cfg.src i).kind with
      | .resistance _ =>
        if which i then { s.cfg.src i with kind := .resistance (watts / 1000) } else s.cfg.src i
      | .condenser _ => s.cfg.src i } }

/-- `getNumResistanceElements`, src/HPWH.cc:1834-1842. -/
def numElements (s : Sim n k) : ℕ :=
  ((List.finRange k).filter fun i => !(s.cfg.src i).kind.isCompressor).length

/-- A power in some unit as watts, src/HPWH.cc:2484-2495. -/
def powerToW : UnitTag → ℚ → Res ℚ
  | .KW, x => .ok (KW_TO_W x)
  | .BTUperHr, x => .ok (BTU_TO_KWH (KW_TO_W x))
  | _, _ => .error .error

/-- The heat sources of the height map at the position of entry `which`, src/HPWH.cc:2510-2525,
2553-2567. -/
def atSamePosition (map : List (Fin k × ℕ)) (which : ℕ) (h : which < map.length) : List (Fin k) :=
  (map.filter fun e => e.2 = (map[which]).2).map (·.1)

/-- `setResistanceCapacity`, src/HPWH.cc:2463-2524. -/
def setResistanceCapacity (s : Sim n k) (power : ℚ) (which : ℤ) (u : UnitTag) : Res (Sim n k) :=
  if s.cfg.canScale = false then .error .error
  else if s.numElements = 0 then .error .error
  else if which < -1 ∨ which > (s.numElements : ℤ) - 1 then .error .error
  else if power < 0 then .error .error
  else do
    let watts ← powerToW u power
    if which = -1 then return s.setPowerWhere watts fun _ => true
    else if h : which.toNat < s.cfg.heightMap.length then
      return s.setPowerWhere watts fun i => (atSamePosition s.cfg.heightMap which.toNat h).contains i
    else .error .ub

/-- `getResistanceCapacity`, src/HPWH.cc:2526-2583. -/
def getResistanceCapacity (s : Sim n k) (which : ℤ) (u : UnitTag) : Res ℚ :=
  if s.numElements = 0 then .error .error
  else if which < -1 ∨ which > (s.numElements : ℤ) - 1 then .error .error
  else if which = -1 then
    powerOut u ((List.finRange k).map s.elementPowerW).sum
  else if h : which.toNat < s.cfg.heightMap.length then
    powerOut u ((atSamePosition s.cfg.heightMap which.toNat h).map s.elementPowerW).sum
  else .error .ub
where
  /-- src/HPWH.cc:2571-2580 -/
  powerOut : UnitTag → ℚ → Res ℚ
    | .KW, x => .ok (W_TO_KW x)
    | .BTUperHr, x => .ok (KWH_TO_BTU (W_TO_KW x))
    | _, _ => .error .error

/-! ## Sizing fractions -/

/-- Loop of `nodeWeightAvgFract`, src/HPWHHeatingLogic.cc:210-217: weighted heights, weights and last
height. -/
def avgFractLoop : (prev : ℚ) → WDist → (wavg w : ℚ) → ℚ × ℚ × ℚ
  | prev, [], wavg, w => (wavg, w, prev)
  | prev, p :: ps, wavg, w =>
    let weight := p.weight * (p.height - prev)
    avgFractLoop p.height ps (wavg + weight * (1 / 2 * (p.height + prev))) (w + weight)

/-- `nodeWeightAvgFract`, src/HPWHHeatingLogic.cc:56, 197-224. -/
def avgFract (l : Logic) (p : Plant n) : Res ℚ :=
  match l.kind with
  | .soc _ _ _ _ => .ok (l.comparisonValue p)
  | .temp _ .bottom => .ok (1 / ((n : ℚ) + 1))
  | .temp _ .top => .ok 1
  | .temp _ (.weighted d) =>
    let r := avgFractLoop 0 d 0 0
    if r.2.1 = 0 ∨ r.2.2 = 0 then .error .nan
    else .ok (r.1 / r.2.1 / r.2.2 + 1 / 2 / 12)

/-- Smallest of 1 and the fractions of the turn-on logics, src/HPWH.cc:2377-2382. -/
def aquaLoop (p : Plant n) : List Logic → ℚ → Res ℚ
  | [], a => .ok a
  | l :: ls, a => do
    let x ← avgFract l p
    aquaLoop p ls (if x < a then x else a)

/-- Smallest of 1 and the usable fractions of the shut-off logics, src/HPWH.cc:2385-2402. -/
def useLoop (p : Plant n) : List Logic → ℚ → Res ℚ
  | [], a => .ok a
  | l :: ls, a =>
    if l.description = "large draw" ∨ l.description = "larger draw" then
      useLoop p ls (if (1 : ℚ) < a then 1 else a)
    else do
      let x ← avgFract l p
      useLoop p ls (if 1 - x < a then 1 - x else a)

/-- `getSizingFractions`, src/HPWH.cc:2361-2417: aquastat fraction and usable fraction. -/
def getSizingFractions (s : Sim n k) : Res (ℚ × ℚ) := do
  let (j, _) ← s.compressor
  if s.socControl ≠ none then .error .error
  else
    let aqua ← aquaLoop s.toPlant (s.cfg.src j).turnOn 1
    let use ← useLoop s.toPlant (s.cfg.src j).shutOff 1
    return (aqua, if |aqua - (1 - use)| < tolMin then 1 - aqua + tolMin else use)

/-! ## Accepting a configuration -/

/-- `findParent`, src/HPWHHeatSource.cc:236-246. -/
def parent (s : Sim n k) (i : Fin k) : Option (Fin k) :=
  (List.finRange k).find? fun j => (s.cfg.src j).backup = some i

/-- The checks of one heat source in `checkInputs`, src/HPWH.cc:2892-2982. The heights of external ports
are nodes by type; the performance function is always present. -/
def sourceOk (s : Sim n k) (i : Fin k) : Bool :=
  let src := s.cfg.src i
  (!src.turnOn.isEmpty ||
    match s.parent i with
    | some j => !(s.cfg.src j).turnOn.isEmpty
    | none => false) &&
  src.turnOn.all (·.isValid) && src.shutOff.all (·.isValid) && src.heatDist.isValid &&
  decide (¬ (src.airflowFreedom > 1 ∨ src.airflowFreedom ≤ 0)) &&
  match src.kind with
  | .resistance _ => true
  | .condenser c =>
    (!c.doDefrost || (decide (3 ≤ c.defrostMap.length) && decide (c.configuration = .external))) &&
    if c.configuration = .external then decide (src.shutOff.length = 1)
    else decide (c.extraPumpPower_W = 0)

/-- The checks of `checkInputs`, src/HPWH.cc:2881-3046, that are not about one heat source. -/
def globalOk (s : Sim n k) : Bool :=
  (decide (0 < k) || s.cfg.isStorageTank) && s.newSetpointPossible s.setpoint &&
  decide (¬ s.tank.UA < 0) && decide (¬ s.tank.heatExchangerEffectiveness > 1)

/-- The order of turn-on and shut-off logic, src/HPWH.cc:2986-2997. -/
def sizingOk (s : Sim n k) : Res Bool :=
  match s.cfg.compressorIndex with
  | none => .ok true
  | some _ => do
    let f ← s.getSizingFractions
    return decide (¬ f.1 < 1 - f.2)

/-- `checkInputs`, src/HPWH.cc:2881-3046. -/
def checkInputs (s : Sim n k) : Res Unit := do
  let order ← s.sizingOk
  if order && s.globalOk && decide (∀ i, s.sourceOk i = true) then .ok () else .error .error

/-- `configure`, src/HPWH.cc:3067-3129, without the adjustments of individual presets
(src/HPWH.cc:3068-3115), which are made on the argument. -/
def configure (m : Libm) (pow : ℚ → ℚ → ℚ) (s : Sim n k) : Res (Sim n k) := do
  let s1 ← s.calcDerivedValues m pow
  s1.checkInputs
  return { s1.resetTankToSetpoint with isHeating := decide (∃ i, (s1.st i).isOn = true) }

end Sim

end HPWH
