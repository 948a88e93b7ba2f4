import Verif.Model.Tank
import Verif.Model.Units

/-! # Heating logics (src/HPWHHeatingLogic.cc) and the shared state heat sources act on -/

namespace HPWH

/-- The comparison functor of a heating logic, `std::less` or `std::greater`,
src/HPWHHeatingLogic.hh:13. -/
inductive Cmp
  | less
  | greater
  deriving DecidableEq

/-- Application of the functor. -/
def Cmp.test : Cmp → ℚ → ℚ → Bool
  | .less, a, b => decide (a < b)
  | .greater, a, b => decide (a > b)

/-- `HPWH::Distribution`, src/HPWH.hh:500-530. -/
inductive Dist
  | bottom
  | top
  | weighted (d : WDist)
  deriving DecidableEq

/-- `Distribution::isValid`, src/HPWH.hh:516-529. -/
def Dist.isValid : Dist → Bool
  | .bottom => true
  | .top => true
  | .weighted d => d.isValid

/-- The two kinds of heating logic, src/HPWHHeatingLogic.hh:67-144. -/
inductive LogicKind
  | temp (isAbsolute : Bool) (dist : Dist)
  | soc (tempMinUseful hysteresis : ℚ) (useConstantMains : Bool) (constantMains : ℚ)
  deriving DecidableEq

/-- `HPWH::HeatingLogic`, src/HPWHHeatingLogic.hh:6-65. -/
structure Logic where
  kind : LogicKind
  decisionPoint : ℚ
  cmp : Cmp
  isEnteringWaterHighTempShutoff : Bool
  checkStandby : Bool
  description : String
  deriving DecidableEq

/-- What `calcAndSetSoCFraction` (src/HPWH.cc:999-1009) reads from the first turn-on logic of the
compressor; `switchToSoCControls` (src/HPWH.cc:1469-1527) makes that a state-of-charge logic whenever
`usesSoCLogic` is set. -/
structure SoCParams where
  tempMinUseful : ℚ
  useConstantMains : Bool
  constantMains : ℚ
  deriving DecidableEq

/-- The part of `HPWH` that heating logics read and heat sources change: tank, setpoint, inlet
temperature, state of charge and the outputs of external heating. `socControl` is `none` when
`usesSoCLogic` is false. -/
structure Plant (n : ℕ) where
  tank : Tank n
  setpoint : ℚ
  inletT : ℚ
  haveInletT : Bool
  socControl : Option SoCParams
  soc : ℚ
  condenserInlet : ℚ
  condenserOutlet : ℚ
  externalVolumeHeated : ℚ
  deriving DecidableEq

namespace Plant

variable {n : ℕ}

/-- Charge of the nodes, src/Tank.cc:647-650. -/
def chargeSum (T : Nodes n ℚ) (mains minUseful : ℚ) : ℚ :=
  ∑ i, if T i < minUseful then 0 else (T i - mains) / (minUseful - mains)

end Plant

/-- `Tank::calcSoCFraction`, src/Tank.cc:633-653. Equal mains and minimum useful temperature, or a
maximum temperature without charge, divide by zero. -/
def calcSoCFraction {n : ℕ} (T : Nodes n ℚ) (mains minUseful tMax : ℚ) : Res ℚ :=
  match chargePerNode mains minUseful tMax with
  | .error e => .error e
  | .ok c =>
    if minUseful - mains = 0 ∨ c = 0 then .error .nan
    else .ok (Plant.chargeSum T mains minUseful / (((n : ℚ) + 1) * c))

namespace Plant

variable {n : ℕ}

/-- `getMainsT_C`, src/HPWHHeatingLogic.cc:34-44. -/
def mainsT (p : Plant n) (useConstantMains : Bool) (constantMains : ℚ) : ℚ :=
  if useConstantMains then constantMains else p.inletT

/-- `updateSoCIfNecessary` and `calcAndSetSoCFraction`, src/HPWH.cc:2600-2606, 999-1009. -/
def updateSoC (p : Plant n) : Res (Plant n) :=
  match p.socControl with
  | none => .ok p
  | some c =>
    match calcSoCFraction p.tank.nodeTs (p.mainsT c.useConstantMains c.constantMains)
        c.tempMinUseful p.setpoint with
    | .ok x => .ok { p with soc := x }
    | .error e => .error e

/-- `getAverageNodeT_C(Distribution)`, src/Tank.cc:297-317. -/
def averageDist (T : Nodes n ℚ) : Dist → Res ℚ
  | .bottom => .ok (T 0)
  | .top => .ok (T (Fin.last n))
  | .weighted d => d.averageT T

end Plant

namespace Logic

variable {n : ℕ}

/-- `getComparisonValue`, src/HPWHHeatingLogic.cc:20-23, 175-186. -/
def comparisonValue (l : Logic) (p : Plant n) : ℚ :=
  match l.kind with
  | .temp true _ => l.decisionPoint
  | .temp false _ => p.setpoint - l.decisionPoint
  | .soc _ hyst _ _ => l.decisionPoint + hyst

/-- `getTankValue`, src/HPWHHeatingLogic.cc:25-32, 188. -/
def tankValue (l : Logic) (p : Plant n) : Res ℚ :=
  match l.kind with
  | .temp _ dist => Plant.averageDist p.tank.nodeTs dist
  | .soc _ _ useConst _ =>
    if p.haveInletT = false ∧ useConst = false then .error .error else .ok p.soc

/-- `isValid`, src/HPWHHeatingLogic.cc:10-18, 165-173. -/
def isValid (l : Logic) : Bool :=
  match l.kind with
  | .temp _ dist => dist.isValid
  | .soc _ _ _ _ => decide (¬ l.decisionPoint < 0)

/-- `compare(getTankValue(), getComparisonValue())`, as in src/HPWHHeatSource.cc:272-275, 323-326. -/
def holds (l : Logic) (p : Plant n) : Res Bool :=
  match l.tankValue p with
  | .ok v => .ok (l.cmp.test v (l.comparisonValue p))
  | .error e => .error e

/-- Loop over the nodes in `getFractToMeetComparisonExternal`, src/HPWHHeatingLogic.cc:253-267: the
first node with positive weight, the last one, and the weighted sum and weight. -/
def fractLoop (d : WDist) (T : Nodes n ℚ) :
    (i room : ℕ) → i + room = n + 1 → Option (Fin (n + 1)) → Fin (n + 1) → (sum tot : ℚ) →
    Res (Option (Fin (n + 1)) × Fin (n + 1) × ℚ × ℚ)
  | _, 0, _, first, last, sum, tot => .ok (first, last, sum, tot)
  | i, room + 1, h, first, last, sum, tot =>
    match d.normalizedWeight ((i : ℚ) / ((n : ℚ) + 1))
        ((i : ℚ) / ((n : ℚ) + 1) + 1 / ((n : ℚ) + 1)) with
    | .error e => .error e
    | .ok w =>
      if w > 0 then
        fractLoop d T (i + 1) room (by omega) (if first = none then some ⟨i, by omega⟩ else first)
          ⟨i, by omega⟩ (sum + w * T ⟨i, by omega⟩) (tot + w)
      else fractLoop d T (i + 1) room (by omega) first last sum tot

/-- The switch of `getFractToMeetComparisonExternal`, src/HPWHHeatingLogic.cc:235-269:
`(firstNode, calcNode, averageT_C)`. No node of positive weight makes `averageT_C` NaN and then
indexes node `-1`. -/
def fractNodes (T : Nodes n ℚ) : Dist → Res (Fin (n + 1) × Fin (n + 1) × ℚ)
  | .bottom => .ok (0, 0, T 0)
  | .top => .ok (Fin.last n, Fin.last n, T (Fin.last n))
  | .weighted d =>
    match fractLoop d T 0 (n + 1) (by omega) none 0 0 0 with
    | .error e => .error e
    | .ok (none, _, _, _) => .error .ub
    | .ok (some first, last, sum, tot) =>
      if tot = 0 then .error .nan else .ok (first, last, sum / tot)

/-- `TempBasedHeatingLogic::getFractToMeetComparisonExternal`, src/HPWHHeatingLogic.cc:226-292. -/
def tempFract (l : Logic) (dist : Dist) (p : Plant n) : Res ℚ :=
  let comparison := l.comparisonValue p + tolMin
  match fractNodes p.tank.nodeTs dist with
  | .error e => .error e
  | .ok (first, last, average) =>
    let target := if h : last.val < n then p.tank.nodeTs ⟨last.val + 1, by omega⟩ else p.setpoint
    let nodeDiff := target - p.tank.nodeTs first
    let logicNodeDiff := comparison - average
    let nodeFrac := if l.cmp.test average comparison then 0
      else if nodeDiff > 0 then logicNodeDiff / nodeDiff else 1
    .ok (((n : ℚ) + 1) / 12 * nodeFrac)

/-- `for (int i = getNumNodes() - 1; i >= 0; i--)`, src/HPWHHeatingLogic.cc:71-79: one above the
highest node colder than the minimum useful temperature, 0 if there is none. -/
def lastUseful (T : Nodes n ℚ) (minUseful : ℚ) : (i : ℕ) → i ≤ n + 1 → ℕ
  | 0, _ => 0
  | i + 1, h => if T ⟨i, by omega⟩ < minUseful then i + 1 else lastUseful T minUseful i (by omega)

/-- `SoCBasedHeatingLogic::getFractToMeetComparisonExternal`, src/HPWHHeatingLogic.cc:58-120. -/
def socFract (l : Logic) (minUseful : ℚ) (useConst : Bool) (constMains : ℚ) (p : Plant n) :
    Res ℚ :=
  match l.tankValue p with
  | .error e => .error e
  | .ok v =>
    let delta := l.comparisonValue p + tolMin - v
    if delta ≥ 1 / ((n : ℚ) + 1) then .ok 1
    else
      let calcNode := lastUseful p.tank.nodeTs minUseful (n + 1) le_rfl
      if h : calcNode < n + 1 then
        let mains := p.mainsT useConst constMains
        match chargePerNode mains minUseful p.setpoint with
        | .error e => .error e
        | .ok c =>
          if minUseful - mains = 0 then .error .nan
          else
            let T := p.tank.nodeTs
            let maxSoC := ((n : ℚ) + 1) * c
            let target0 := delta * maxSoC + (T ⟨calcNode, h⟩ - mains) / (minUseful - mains)
            let target := target0 * (minUseful - mains) + mains
            let fractCalc := if T ⟨calcNode, h⟩ ≥ p.setpoint then 1
              else (target - T ⟨calcNode, h⟩) / (p.setpoint - T ⟨calcNode, h⟩)
            if h0 : calcNode = 0 then .ok fractCalc
            else
              let below := T ⟨calcNode - 1, by omega⟩
              if T ⟨calcNode, h⟩ - below = 0 then .error .nan
              else
                let fractNext := (minUseful - below) / (T ⟨calcNode, h⟩ - below) + tolMin
                .ok (min fractCalc fractNext)
      else .ok 1

/-- `getFractToMeetComparisonExternal` of either kind. -/
def fractToMeet (l : Logic) (p : Plant n) : Res ℚ :=
  match l.kind with
  | .temp _ dist => l.tempFract dist p
  | .soc minUseful _ useConst constMains => l.socFract minUseful useConst constMains p

end Logic

end HPWH
