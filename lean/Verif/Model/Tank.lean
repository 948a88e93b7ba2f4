import Verif.Model.Basic
import Verif.Model.Mix
import Verif.Model.Utils
import Mathlib.Algebra.Order.Floor.Semiring
import Mathlib.Algebra.Order.Floor.Ring
import Mathlib.Data.Rat.Floor
import Mathlib.Algebra.BigOperators.Fin
import Mathlib.Logic.Function.Basic

/-! # Tank (src/Tank.hh, src/Tank.cc) -/

namespace HPWH

/-- The settings of `HPWH::Tank`, src/Tank.hh:74-213: everything a simulation step does not change.
Names and descriptions are omitted. Inlet heights are naturals: every setter
(src/Tank.cc:603-622) stores a non-negative index. -/
structure TankCfg where
  volume_L : ℚ
  mixesOnDraw : Bool
  mixBelowFractionOnDraw : ℚ
  doInversionMixing : Bool
  doConduction : Bool
  volumeFixed : Bool
  nodeVolume_L : ℚ
  nodeCp : ℚ
  nodeHeight_m : ℚ
  fracAreaTop : ℚ
  fracAreaSide : ℚ
  UA : ℚ
  fittingsUA : ℚ
  inletHeight : ℕ
  inlet2Height : ℕ
  hasHeatExchanger : Bool
  heatExchangerEffectiveness : ℚ
  nodeHeatExchangerEffectiveness : ℚ
  deriving DecidableEq

/-- The data of `HPWH::Tank`, src/Tank.hh:74-213: settings and state.  `nextNodeTs_C` is scratch
space that is overwritten before every use (src/Tank.cc:533) and is omitted. -/
structure Tank (n : ℕ) extends TankCfg where
  nodeTs : Nodes n ℚ
  standbyLosses_kJ : ℚ
  outletT : ℚ
  deriving DecidableEq

namespace Tank

variable {n : ℕ}

/-- `getNumNodes`, src/Tank.hh:134, as a rational. -/
def numNodes (_ : Tank n) : ℚ := (n : ℚ) + 1

/-- `Tank::getAverageNodeT_C()`, src/Tank.cc:231-239. -/
def averageNodeT (t : Tank n) : ℚ := (∑ k, t.nodeTs k) / t.numNodes

/-- `Tank::getHeatContent_kJ`, src/Tank.cc:320-323. -/
def heatContent (t : Tank n) : ℚ := rhoWater * t.volume_L * cpWater * t.averageNodeT

/-- `Tank::mixInversions`, src/Tank.cc:374-416. -/
def mixInversions (t : Tank n) : Tank n :=
  if t.doInversionMixing then
    { t with
      nodeTs := mixInversionsWith (exactMixer (t.volume_L / t.numNodes * rhoWater)) t.nodeTs }
  else t

/-- The averaging sum of `Tank::mixNodes`, src/Tank.cc:359-365. -/
def mixAverage (T : Nodes n ℚ) (bottom below : ℕ) : ℚ :=
  (∑ k : Fin (n + 1), if bottom ≤ k.val ∧ k.val < below then T k else 0) /
    ((below : ℚ) - bottom)

/-- `Tank::mixNodes`, src/Tank.cc:357-371.  `below > n+1` reads past the node vector.
An empty range divides by zero but the result is not used. -/
def mixNodes (T : Nodes n ℚ) (bottom below : ℕ) (mixFactor : ℚ) : Res (Nodes n ℚ) :=
  if below ≤ bottom then .ok T
  else if n + 1 < below then .error .ub
  else
    let avg := mixAverage T bottom below
    .ok (fun k => if bottom ≤ k.val ∧ k.val < below then T k + mixFactor * (avg - T k) else T k)

/-! ## Draws -/

/-- The two inlets sorted by height, src/Tank.cc:432-458. -/
structure Inlets where
  highNode : ℕ
  highT : ℚ
  highFrac : ℚ
  lowNode : ℕ
  lowT : ℚ
  lowFrac : ℚ

/-- src/Tank.cc:441-458. -/
def sortInlets (t : Tank n) (drawVolume_L inletT inletVol2_L inletT2 : ℚ) : Inlets :=
  if t.inletHeight > t.inlet2Height then
    { highNode := t.inletHeight, highFrac := 1 - inletVol2_L / drawVolume_L, highT := inletT,
      lowNode := t.inlet2Height, lowT := inletT2, lowFrac := inletVol2_L / drawVolume_L }
  else
    { highNode := t.inlet2Height, highFrac := inletVol2_L / drawVolume_L, highT := inletT2,
      lowNode := t.inletHeight, lowT := inletT, lowFrac := 1 - inletVol2_L / drawVolume_L }

/-- Inlet water entering node `i`, src/Tank.cc:496-505: the updated `inletFraction` and nodes. -/
def addInlets (s : Inlets) (inc : ℚ) (i : ℕ) (h : i < n + 1) (frac : ℚ) (T : Nodes n ℚ) :
    ℚ × Nodes n ℚ :=
  let r1 := if i = s.highNode then
      (frac + s.highFrac, Function.update T ⟨i, h⟩ (T ⟨i, h⟩ + inc * s.highFrac * s.highT))
    else (frac, T)
  if i = s.lowNode then
    (r1.1 + s.lowFrac, Function.update r1.2 ⟨i, h⟩ (r1.2 ⟨i, h⟩ + inc * s.lowFrac * s.lowT))
  else r1

/-- The sweep `for (int i = getNumNodes() - 1; i >= 0; --i)`, src/Tank.cc:492-514, from node `i`
down; `frac` is `inletFraction`. -/
def drawSweepFrom (s : Inlets) (inc : ℚ) : (i : ℕ) → i < n + 1 → ℚ → Nodes n ℚ → Nodes n ℚ
  | 0, h, frac, T => (addInlets s inc 0 h frac T).2
  | i + 1, h, frac, T =>
    let r := addInlets s inc (i + 1) h frac T
    let transferT := inc * (1 - r.1) * r.2 ⟨i, by omega⟩
    let T1 := Function.update r.2 ⟨i + 1, h⟩ (r.2 ⟨i + 1, h⟩ + transferT)
    let T2 := Function.update T1 ⟨i, by omega⟩ (T1 ⟨i, by omega⟩ - transferT)
    drawSweepFrom s inc i (by omega) r.1 T2

/-- One increment of the draw, src/Tank.cc:484-517: the expelled heat and the tank after the
increment (including inversion mixing). -/
def drawIncrement (t : Tank n) (s : Inlets) (inc : ℚ) : ℚ × Tank n :=
  let outputHeat := t.nodeCp * inc * t.nodeTs (Fin.last n)
  let T1 := Function.update t.nodeTs (Fin.last n)
    (t.nodeTs (Fin.last n) - outputHeat / t.nodeCp)
  let T2 := drawSweepFrom s inc n (by omega) 0 T1
  (outputHeat, ({ t with nodeTs := T2 } : Tank n).mixInversions)

/-- The loop `while (remainingDrawVolume_N > 0.)`, src/Tank.cc:479-518, with a bound on the number
of iterations; `none` if the bound is reached.  Returns `totalExpelledHeat_kJ` and the tank. -/
def drawLoop (s : Inlets) : ℕ → ℚ → ℚ → Tank n → Option (ℚ × Tank n)
  | fuel, remaining, expelled, t =>
    if remaining > 0 then
      match fuel with
      | 0 => none
      | fuel + 1 =>
        let inc := if remaining > 1 then 1 else remaining
        let r := drawIncrement t s inc
        drawLoop s fuel (remaining - inc) (expelled + r.1) r.2
    else some (expelled, t)

/-- `⌈remaining⌉` iterations always suffice. -/
theorem drawLoop_isSome (s : Inlets) (fuel : ℕ) (remaining expelled : ℚ) (t : Tank n)
    (h : remaining ≤ fuel) : (drawLoop s fuel remaining expelled t).isSome := by
  induction fuel generalizing remaining expelled t with
  | zero =>
    have : ¬ remaining > 0 := by simpa using h
    simp [drawLoop, this]
  | succ fuel ih =>
    rw [drawLoop]
    by_cases hr : remaining > 0
    · simp only [hr, if_true]
      apply ih
      push_cast at h
      by_cases h1 : remaining > 1
      · simp only [h1, if_true]; linarith
      · simp only [h1, if_false]
        have : (0 : ℚ) ≤ fuel := Nat.cast_nonneg fuel
        linarith
    · simp [hr]

/-- The draw of `drawVolume_N` node volumes, src/Tank.cc:479-520; the iteration bound is never
reached (`drawLoop_isSome`). -/
def draw (t : Tank n) (s : Inlets) (drawVolume_N : ℚ) : ℚ × Tank n :=
  (drawLoop s ⌈drawVolume_N⌉₊ drawVolume_N 0 t).get
    (drawLoop_isSome s _ _ _ _ (Nat.le_ceil _))

/-- Heat-exchanger loop, src/Tank.cc:467-475, over the nodes `k … n` upward. The state is the
outlet temperature and the nodes. -/
def hxLoop (drawCp nodeCp eff : ℚ) : (k : ℕ) → (j : ℕ) → k + j = n + 1 → ℚ × Nodes n ℚ →
    ℚ × Nodes n ℚ
  | _, 0, _, s => s
  | k, j + 1, h, (outT, T) =>
    let maxHeatExchange := drawCp * (T ⟨k, by omega⟩ - outT)
    let heatExchange := eff * maxHeatExchange
    hxLoop drawCp nodeCp eff (k + 1) j (by omega)
      (outT + heatExchange / drawCp,
        Function.update T ⟨k, by omega⟩ (T ⟨k, by omega⟩ - heatExchange / nodeCp))

/-- Node index `(int)(getNumNodes() * mixBelowFractionOnDraw)`, src/Tank.cc:526 (truncation; a
negative value gives an empty range). -/
def mixedBelowNode (t : Tank n) : ℕ := (Int.floor (t.numNodes * t.mixBelowFractionOnDraw)).toNat

/-- Heat-exchanger or direct draw, src/Tank.cc:432-521 (everything of the draw but the volume check
and bottom mixing). -/
def drawWater (t : Tank n) (drawVolume_L inletT inletVol2_L inletT2 : ℚ) : Tank n :=
  let s := sortInlets t drawVolume_L inletT inletVol2_L inletT2
  let drawVolume_N := drawVolume_L / t.nodeVolume_L
  let drawCp := cpWater * rhoWater * drawVolume_L
  if t.hasHeatExchanger then
    let r := hxLoop drawCp t.nodeCp t.nodeHeatExchangerEffectiveness 0 (n + 1) (by omega)
      (inletT, t.nodeTs)
    { t with outletT := r.1, nodeTs := r.2 }
  else
    let r := draw t s drawVolume_N
    { r.2 with outletT := r.1 / drawCp }

/-- Mixing at the bottom of the tank, src/Tank.cc:523-528. -/
def mixBottom (t : Tank n) : Res (Tank n) :=
  if t.mixesOnDraw then
    match mixNodes t.nodeTs 0 t.mixedBelowNode (1 / 3) with
    | .ok T => .ok { t with nodeTs := T }
    | .error e => .error e
  else .ok t

/-- Draw branch of `updateNodes`, src/Tank.cc:424-530. -/
def processDraw (t : Tank n) (drawVolume_L inletT inletVol2_L inletT2 : ℚ) : Res (Tank n) :=
  if drawVolume_L > 0 then
    if inletVol2_L > drawVolume_L then .error .error
    else (t.drawWater drawVolume_L inletT inletVol2_L inletT2).mixBottom
  else .ok t

/-! ## Standby losses and conduction -/

/-- Heat lost through bottom and top, src/Tank.cc:541-546. -/
def endLossRate (t : Tank n) : ℚ := t.UA * t.fracAreaTop
/-- src/Tank.cc:554-555. -/
def sideLossRate (t : Tank n) : ℚ := (t.UA * t.fracAreaSide + t.fittingsUA) / t.numNodes

/-- src/Tank.cc:543-544. -/
def lossBottom (t : Tank n) (hours amb : ℚ) : ℚ := t.endLossRate * hours * (t.nodeTs 0 - amb)
/-- src/Tank.cc:545-546. -/
def lossTop (t : Tank n) (hours amb : ℚ) : ℚ :=
  t.endLossRate * hours * (t.nodeTs (Fin.last n) - amb)
/-- src/Tank.cc:558-559. -/
def lossSide (t : Tank n) (hours amb : ℚ) (k : Fin (n + 1)) : ℚ :=
  t.sideLossRate * hours * (t.nodeTs k - amb)

/-- `nextNodeTs_C` after standby losses, src/Tank.cc:533-564. -/
def afterLosses (t : Tank n) (hours amb : ℚ) : Nodes n ℚ :=
  let N1 := Function.update t.nodeTs 0 (t.nodeTs 0 - t.lossBottom hours amb / t.nodeCp)
  let N2 := Function.update N1 (Fin.last n) (N1 (Fin.last n) - t.lossTop hours amb / t.nodeCp)
  fun k => N2 k - t.lossSide hours amb k / t.nodeCp

/-- Total standby loss, src/Tank.cc:543-560,597. -/
def stepLosses (t : Tank n) (hours amb : ℚ) : ℚ :=
  t.lossBottom hours amb + t.lossTop hours amb + ∑ k, t.lossSide hours amb k

/-- The conduction number `tau`, src/Tank.cc:570-573. -/
def tau (t : Tank n) (seconds : ℚ) : ℚ :=
  2 * kWater / ((cpWater * 1000) * (rhoWater * 1000) * (t.nodeHeight_m * t.nodeHeight_m)) * seconds

/-- Conduction added to `nextNodeTs_C`, src/Tank.cc:580-591: end nodes exchange with their single
neighbour, inner nodes with both; all reads are of the unmodified `nodeTs_C`. -/
def conductNode (tau : ℚ) (T : Nodes n ℚ) (k : Fin (n + 1)) : ℚ :=
  if _hn : n = 0 then 0
  else if _h0 : k.val = 0 then tau * (T ⟨1, by omega⟩ - T k)
  else if _hl : k.val = n then tau * (T ⟨n - 1, by omega⟩ - T k)
  else tau * (T ⟨k.val + 1, by omega⟩ - 2 * T k + T ⟨k.val - 1, by omega⟩)

/-- Node temperatures after losses and (if enabled) conduction, src/Tank.cc:532-595. -/
def nextNodes (t : Tank n) (hours seconds amb : ℚ) : Nodes n ℚ :=
  fun k => t.afterLosses hours amb k +
    (if t.doConduction then conductNode (t.tau seconds) t.nodeTs k else 0)

/-- Losses and conduction of `updateNodes`, src/Tank.cc:532-599.  On the stability error the code
throws before committing `nextNodeTs_C`; the draw of the same call has been committed by then, which
this model of failure does not keep. -/
def processLosses (t : Tank n) (hours seconds amb : ℚ) : Res (Tank n) :=
  if t.doConduction = true ∧ t.tau seconds > 1 then .error .error
  else
    .ok (({ t with
      nodeTs := t.nextNodes hours seconds amb
      standbyLosses_kJ := t.standbyLosses_kJ + t.stepLosses hours amb } : Tank n).mixInversions)

/-- `Tank::updateNodes`, src/Tank.cc:418-601; `hours`, `seconds` are `hpwh->hoursPerStep` and
`hpwh->secondsPerStep`. -/
def updateNodes (t : Tank n) (hours seconds drawVolume_L inletT amb inletVol2_L inletT2 : ℚ) :
    Res (Tank n) :=
  match t.processDraw drawVolume_L inletT inletVol2_L inletT2 with
  | .ok t1 => t1.processLosses hours seconds amb
  | .error e => .error e

/-! ## Adding heat -/

/-- Number of consecutive nodes from `i` upward with equal temperature, minus what has been counted
so far: src/Tank.cc:658-669 (`numNodesToHeat`, starting from `num`). -/
def countEqual (T : Nodes n ℚ) : (i : ℕ) → (j : ℕ) → i + j = n → ℕ → ℕ
  | _, 0, _, num => num
  | i, j + 1, h, num =>
    if T ⟨i, by omega⟩ ≠ T ⟨i + 1, by omega⟩ then num
    else countEqual T (i + 1) j (by omega) (num + 1)

/-- `for (int j = 0; j < numNodesToHeat; ++j) nodeTs_C[nodeNum + j] = heatToT_C;`
src/Tank.cc:698-701. -/
def setRun (T : Nodes n ℚ) (node num : ℕ) (v : ℚ) : Nodes n ℚ :=
  fun k => if node ≤ k.val ∧ k.val < node + num then v else T k

/-- Loop of `Tank::addHeatAboveNode`, src/Tank.cc:671-711.  `room` counts the iterations still
allowed by `nodeNum + numNodesToHeat - 1 < getNumNodes()`. Returns left-over heat and nodes. -/
def addHeatLoop (nodeCp maxT : ℚ) (node : ℕ) (hnode : node < n + 1) :
    (num : ℕ) → (room : ℕ) → node + num + room = n + 2 → ℚ → Nodes n ℚ → ℚ × Nodes n ℚ
  | _, 0, _, q, T => (q, T)
  | num, room + 1, h, q, T =>
    if q > 0 then
      let heatTo :=
        if ht : node + num > n then maxT
        else if T ⟨node + num, by omega⟩ > maxT then maxT else T ⟨node + num, by omega⟩
      let qInc := (num : ℚ) * nodeCp * (heatTo - T ⟨node, hnode⟩)
      if qInc > q then
        addHeatLoop nodeCp maxT node hnode (num + 1) room (by omega) 0
          (setRun T node num (T ⟨node, hnode⟩ + q / nodeCp / num))
      else if qInc > 0 then
        addHeatLoop nodeCp maxT node hnode (num + 1) room (by omega) (q - qInc)
          (setRun T node num heatTo)
      else addHeatLoop nodeCp maxT node hnode (num + 1) room (by omega) q T
    else (q, T)

theorem countEqual_bounds (T : Nodes n ℚ) (i j : ℕ) (h : i + j = n) (num : ℕ) :
    num ≤ countEqual T i j h num ∧ countEqual T i j h num ≤ num + j := by
  induction j generalizing i num with
  | zero => simp [countEqual]
  | succ j ih =>
    rw [countEqual]
    split
    · omega
    · have := ih (i + 1) (by omega) (num + 1)
      omega

/-- `Tank::addHeatAboveNode`, src/Tank.cc:655-715. -/
def addHeatAboveNode (t : Tank n) (q : ℚ) (node : Fin (n + 1)) (maxT : ℚ) : ℚ × Tank n :=
  let num := countEqual t.nodeTs node.val (n - node.val) (by omega) 1
  let r := addHeatLoop t.nodeCp maxT node.val node.isLt num (n + 2 - node.val - num)
    (by have := countEqual_bounds t.nodeTs node.val (n - node.val) (by omega) 1; omega) q t.nodeTs
  (r.1, { t with nodeTs := r.2 })

/-- Loop of `Tank::addExtraHeatAboveNode`, src/Tank.cc:733-770. -/
def addExtraLoop (nodeCp : ℚ) (node : ℕ) (hnode : node < n + 1) :
    (num : ℕ) → (room : ℕ) → node + num + room = n + 2 → ℚ → Nodes n ℚ → ℚ × Nodes n ℚ
  | _, 0, _, q, T => (q, T)
  | num, room + 1, h, q, T =>
    if q > 0 then
      let heatTo :=
        if ht : node + num > n then T ⟨node, hnode⟩ + q / nodeCp / num
        else T ⟨node + num, by omega⟩
      let qInc := nodeCp * (num : ℚ) * (heatTo - T ⟨node, hnode⟩)
      if qInc > q then
        addExtraLoop nodeCp node hnode (num + 1) room (by omega) 0
          (setRun T node num (T ⟨node, hnode⟩ + q / nodeCp / num))
      else if qInc > 0 then
        addExtraLoop nodeCp node hnode (num + 1) room (by omega) (q - qInc)
          (setRun T node num heatTo)
      else addExtraLoop nodeCp node hnode (num + 1) room (by omega) q T
    else (q, T)

/-- `Tank::addExtraHeatAboveNode`, src/Tank.cc:717-771. -/
def addExtraHeatAboveNode (t : Tank n) (q : ℚ) (node : Fin (n + 1)) : Tank n :=
  let num := countEqual t.nodeTs node.val (n - node.val) (by omega) 1
  let r := addExtraLoop t.nodeCp node.val node.isLt num (n + 2 - node.val - num)
    (by have := countEqual_bounds t.nodeTs node.val (n - node.val) (by omega) 1; omega) q t.nodeTs
  { t with nodeTs := r.2 }

/-! ## Thermocouples -/

/-- `Tank::getNthSimTcouple`, src/Tank.cc:325-335. -/
def nthSimTcouple (t : Tank n) (i m : ℤ) : Res ℚ :=
  if i > m ∨ i < 1 then .error .error
  else getResampledValue t.nodeTs (((i : ℚ) - 1) / m) ((i : ℚ) / m)

/-! ## Sizes -/

/-- Derived size constants agree with the volume: what `Tank::calcSizeConstants`
(src/Tank.cc:104-110) establishes. -/
structure Consistent (t : Tank n) : Prop where
  volume_pos : 0 < t.volume_L
  nodeVolume : t.nodeVolume_L = t.volume_L / t.numNodes
  nodeCp : t.nodeCp = cpWater * rhoWater * t.nodeVolume_L

end Tank

end HPWH
