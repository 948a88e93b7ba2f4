import Mathlib.Algebra.BigOperators.Fin
import Mathlib.Algebra.Order.Floor.Semiring
import Mathlib.Data.Rat.Floor
import Mathlib.Data.Rat.Defs
import Mathlib.Algebra.Order.Ring.Rat
import Mathlib.Algebra.Order.Field.Rat
import Verif.Model.Basic

/-! # Model of src/HPWHUtils.cc and of `WeightedDistribution` (src/HPWH.hh) -/

namespace HPWH

/-! ## Resampling -/

/-- Loop of `getResampledValue`, src/HPWHUtils.cc:34-45. `fuel` only makes the recursion structural;
reading `sampleValues[index]` out of range is `ub`. Returns `(totValueWeight, totWeight)`. -/
def resampledLoop {n : ℕ} (v : Fin n → ℚ) (endF : ℚ) :
    (fuel : ℕ) → (index : ℕ) → (prev next totV totW : ℚ) → Res (ℚ × ℚ)
  | 0, _, _, _, _, _ => .error .diverge
  | fuel + 1, index, prev, next, totV, totW =>
    if next < endF then
      if h : index < n then
        let next := ((index + 1 : ℕ) : ℚ) / n
        let next := if next > endF then endF else next
        let weight := next - prev
        resampledLoop v endF fuel (index + 1) next next (totV + weight * v ⟨index, h⟩)
          (totW + weight)
      else .error .ub
    else .ok (totV, totW)

/-- `HPWH::getResampledValue`, src/HPWHUtils.cc:15-50. The cast to `size_t` of the non-negative
`beginFraction * nNodes` is `⌊·⌋₊`. -/
def getResampledValue {n : ℕ} (v : Fin n → ℚ) (beginF endF : ℚ) : Res ℚ :=
  let a := if beginF > endF then endF else beginF
  let b := if beginF > endF then beginF else endF
  let a := if a < 0 then 0 else a
  let b := if b > 1 then 1 else b
  match resampledLoop v b (n + 2) ⌊a * n⌋₊ a a 0 0 with
  | .ok (totV, totW) => .ok (if totW > 0 then totV / totW else 0)
  | .error e => .error e

/-- `std::fill_n(values.begin() + first, count, x)`. -/
def fillN {m : ℕ} (values : Fin m → ℚ) (first count : ℕ) (x : ℚ) : Fin m → ℚ :=
  fun k => if first ≤ k.val ∧ k.val < first + count then x else values k

/-- Body of the loop of `HPWH::resample`, src/HPWHUtils.cc:63-86, for an index in range: the new
`index`, `beginFraction` and `values`. Out-of-range accesses are `ub`. The `size_t` difference on line
79 is computed in `double` and then cast; it is modelled by truncated subtraction of naturals (it is
never negative). -/
def resampleBody {m n : ℕ} (samples : Fin n → ℚ) (index : ℕ) (hi : index < m) (beginF : ℚ)
    (values : Fin m → ℚ) : Res (ℕ × ℚ × (Fin m → ℚ)) :=
  let ratio : ℚ := (n : ℚ) / m
  let binSize := ⌊1 / ratio⌋₊
  let sampleIndex := ⌊(index : ℚ) * ratio⌋₊
  if (sampleIndex : ℚ) + 1 < ((index : ℚ) + 1) * ratio then
    let endF := ((index + 1 : ℕ) : ℚ) / m
    match getResampledValue samples beginF endF with
    | .ok x => .ok (index + 1, endF, Function.update values ⟨index, hi⟩ x)
    | .error e => .error e
  else
    let first := if binSize > 1 then ⌈(sampleIndex : ℚ) / ratio⌉₊ else index
    let count := if binSize > 1 then
      ⌊((sampleIndex + 1 : ℕ) : ℚ) / ratio⌋₊ - ⌈(sampleIndex : ℚ) / ratio⌉₊ else binSize
    if hs : sampleIndex < n then
      if first + count ≤ m then
        .ok (first + count, ((first + count : ℕ) : ℚ) / m,
          fillN values first count (samples ⟨sampleIndex, hs⟩))
      else .error .ub
    else .error .ub

/-- Loop of `HPWH::resample`, src/HPWHUtils.cc:62-87. `fuel` only makes the recursion structural. -/
def resampleLoop {m n : ℕ} (samples : Fin n → ℚ) :
    (fuel : ℕ) → (index : ℕ) → (beginF : ℚ) → (Fin m → ℚ) → Res (Fin m → ℚ)
  | 0, _, _, _ => .error .diverge
  | fuel + 1, index, beginF, values =>
    if hi : index < m then
      match resampleBody samples index hi beginF values with
      | .ok (index', beginF', values') => resampleLoop samples fuel index' beginF' values'
      | .error e => .error e
    else .ok values

/-- `HPWH::resample`, src/HPWHUtils.cc:53-88. -/
def resample {m n : ℕ} (values : Fin m → ℚ) (samples : Fin n → ℚ) : Res (Fin m → ℚ) :=
  if n = 0 then .ok values else resampleLoop samples (m + 1) 0 0 values

/-- `HPWH::resampleExtensive`, src/HPWHUtils.cc:91-97. -/
def resampleExtensive {m n : ℕ} (values : Fin m → ℚ) (samples : Fin n → ℚ) : Res (Fin m → ℚ) :=
  match resample values samples with
  | .ok r => .ok (fun k => r k * ((n : ℚ) / m))
  | .error e => .error e

/-! ## Normalisation and the thermal distribution -/

/-- One pass of the loop of `HPWH::normalize`, src/HPWHUtils.cc:117-145: the new entries and
`normalization_needed`. -/
def normalizePass {N : ℕ} (d : Fin N → ℚ) : (Fin N → ℚ) × Bool :=
  let s := ∑ i, d i
  if s > 0 then
    (fun i => if d i / s < tolMin then 0 else d i / s,
     decide (∃ i, d i / s < tolMin ∧ d i / s > 0))
  else (fun _ => 0, false)

/-- The `while` loop of `HPWH::normalize`, src/HPWHUtils.cc:112-146, with fuel. -/
def normalizeLoop {N : ℕ} : (fuel : ℕ) → (Fin N → ℚ) → Res (Fin N → ℚ)
  | 0, _ => .error .diverge
  | fuel + 1, d =>
    let p := normalizePass d
    if p.2 then normalizeLoop fuel p.1 else .ok p.1

/-- `HPWH::normalize`, src/HPWHUtils.cc:108-147. The fuel `N + 1` is shown to be sufficient
(`normalize_terminates`). -/
def normalize {N : ℕ} (d : Fin N → ℚ) : Res (Fin N → ℚ) := normalizeLoop (N + 1) d

/-- `HPWH::expitFunc`, src/HPWHUtils.cc:100-105; the exponential is a parameter. -/
def expit (exp : ℚ → ℚ) (x offset : ℚ) : ℚ := 1 / (1 + exp (x - offset))

/-- The raw entries computed by `HPWH::calcThermalDist`, src/HPWHUtils.cc:196-210. -/
def thermalRaw {n : ℕ} (exp : ℚ → ℚ) (shrinkageT : ℚ) (lowestNode : Fin (n + 1))
    (T : Fin (n + 1) → ℚ) (setpoint : ℚ) : Fin (n + 1) → ℚ := fun i =>
  if lowestNode ≤ i then
    let dist := expit exp ((T i - T lowestNode) / shrinkageT) (5 / (18 / 10)) * (setpoint - T i)
    if dist < 0 then 0 else dist
  else 0

/-- `HPWH::calcThermalDist`, src/HPWHUtils.cc:185-220. A zero shrinkage divides `0/0` at the lowest
node and gives NaN. `lowestNode` is a node of the tank (`findLowestNode` returns one). -/
def calcThermalDist {n : ℕ} (exp : ℚ → ℚ) (shrinkageT : ℚ) (lowestNode : Fin (n + 1))
    (T : Fin (n + 1) → ℚ) (setpoint : ℚ) : Res (Fin (n + 1) → ℚ) :=
  if shrinkageT = 0 then .error .nan
  else
    let raw := thermalRaw exp shrinkageT lowestNode T setpoint
    if ∑ i, raw i > 0 then normalize raw else .ok (fun _ => 1 / ((n + 1 : ℕ) : ℚ))

/-! ## Weighted distributions -/

/-- `HPWH::DistributionPoint`, src/HPWH.hh:359-362. -/
structure DistPoint where
  height : ℚ
  weight : ℚ
  deriving DecidableEq

/-- `HPWH::WeightedDistribution`, src/HPWH.hh:366-491: a vector of points. -/
abbrev WDist := List DistPoint

namespace WDist

/-- Construction from separate vectors, src/HPWH.hh:373-384: stops at the shorter one. -/
def ofVectors (heights weights : List ℚ) : WDist :=
  (heights.zip weights).map fun p => ⟨p.1, p.2⟩

/-- `maximumHeight`, src/HPWH.hh:410 (`back()` of an empty vector is undefined; callers below are
guarded). -/
def maximumHeight (d : WDist) (h : d ≠ []) : ℚ := (d.getLast h).height

/-- Sum of the loop in `totalWeight`, src/HPWH.hh:424-431. -/
def totalLoop : (prev : ℚ) → WDist → ℚ
  | _, [] => 0
  | prev, p :: ps => p.weight * (p.height - prev) + totalLoop p.height ps

/-- `isValid`, src/HPWH.hh:439-452. -/
def isValidLoop : (prev : ℚ) → WDist → Bool
  | _, [] => true
  | prev, p :: ps => decide (p.height > prev) && isValidLoop p.height ps

/-- `isValid`, src/HPWH.hh:439-452: not empty, some positive weight, heights strictly increasing from
0. -/
def isValid (d : WDist) : Bool :=
  !d.isEmpty && d.any (fun p => decide (p.weight > 0)) && isValidLoop 0 d

/-- Loop of `normalizedWeight`, src/HPWH.hh:458-473. -/
def weightLoop (maxH beginF endF : ℚ) : (prev : ℚ) → WDist → (res : ℚ) → ℚ
  | _, [], res => res
  | prev, p :: ps, res =>
    let frac := p.height / maxH
    if frac < beginF then weightLoop maxH beginF endF prev ps res
    else if frac > prev then
      if frac > endF then res + p.weight * (endF - prev)
      else weightLoop maxH beginF endF frac ps (res + p.weight * (frac - prev))
    else weightLoop maxH beginF endF frac ps res

/-- `normalizedWeight`, src/HPWH.hh:455-475: an empty distribution, a zero maximum height or a zero
total weight gives NaN. -/
def normalizedWeight (d : WDist) (beginF endF : ℚ) : Res ℚ :=
  if hd : d = [] then .error .nan
  else
    let maxH := d.maximumHeight hd
    if maxH = 0 then .error .nan
    else
      let total := totalLoop 0 d / maxH
      if total = 0 then .error .nan
      else .ok (weightLoop maxH beginF endF beginF d 0 / total)

/-- Loop of `findLowestNode`, src/HPWHUtils.cc:152-158. The integer division `j / numTankNodes` on
line 154 is zero for every `j < numTankNodes`, so the weight of everything up to the top of node `j`
is tested. A NaN weight compares false. -/
def lowestLoop (d : WDist) (N : ℕ) : (j room : ℕ) → ℕ
  | _, 0 => 0
  | j, room + 1 =>
    match d.normalizedWeight (((j / N : ℕ) : ℚ)) (((j : ℚ) + 1) / N) with
    | .ok w => if w > 0 then j else lowestLoop d N (j + 1) room
    | .error _ => lowestLoop d N (j + 1) room

/-- `HPWH::findLowestNode`, src/HPWHUtils.cc:150-159. -/
def findLowestNode (d : WDist) (N : ℕ) : ℕ := lowestLoop d N 0 N

/-- `WeightedDistribution(node_distribution)`, src/HPWH.hh:387-408: one point per run of equal
neighbours. A zero sum divides by zero (`nan`). -/
def ofNodesLoop (N : ℕ) (s : ℚ) : (i : ℕ) → List ℚ → WDist
  | _, [] => []
  | i, [x] => [⟨((i + 1 : ℕ) : ℚ) / N, N * x / s⟩]
  | i, x :: y :: xs =>
    if x ≠ y then ⟨((i + 1 : ℕ) : ℚ) / N, N * x / s⟩ :: ofNodesLoop N s (i + 1) (y :: xs)
    else ofNodesLoop N s (i + 1) (y :: xs)

/-- `WeightedDistribution(node_distribution)`, src/HPWH.hh:387-408. -/
def ofNodes (xs : List ℚ) : Res WDist :=
  if xs ≠ [] ∧ xs.sum = 0 then .error .nan else .ok (ofNodesLoop xs.length xs.sum 0 xs)

/-- Normalised weight of the height range of node `i` of `N`, src/HPWHHeatSource.cc:386-388. -/
def nodeShare (d : WDist) (N : ℕ) (i : ℕ) : Res ℚ :=
  d.normalizedWeight ((i : ℚ) / N) (((i + 1 : ℕ) : ℚ) / N)

/-- `HeatSource::calcHeatDist`, src/HPWHHeatSource.cc:378-396: the normalised weight of each node's
height range, divided by their total. A NaN weight or a zero total makes every entry NaN. -/
def calcHeatDist (d : WDist) (N : ℕ) : Res (Fin N → ℚ) :=
  if ∀ i : Fin N, (d.nodeShare N i).isOk = true then
    let w : Fin N → ℚ := fun i => match d.nodeShare N i with
      | .ok x => x
      | .error _ => 0
    let total := ∑ i, w i
    if total = 0 then .error .nan else .ok (fun i => w i / total)
  else .error .nan

/-- Inner `while` of `getAverageNodeT_C(WeightedDistribution)`, src/Tank.cc:265-292, for one node:
`normH` is the lower end of the current piece; returns the remaining points, `sum` and `totWeight`.
Reaching the end of the distribution dereferences the end iterator (`ub`). -/
def avgInner (maxH next nodeT : ℚ) : (normH : ℚ) → WDist → (sum tot : ℚ) → Res (WDist × ℚ × ℚ)
  | _, [], _, _ => .error .ub
  | normH, p :: ps, sum, tot =>
    let ndh := p.height / maxH
    if ndh < next then
      let weight := p.weight * (ndh - normH)
      if weight > 0 then avgInner maxH next nodeT ndh ps (sum + weight * nodeT) (tot + weight)
      else avgInner maxH next nodeT ndh ps sum tot
    else
      let weight := p.weight * (next - normH)
      if weight > 0 then .ok (p :: ps, sum + weight * nodeT, tot + weight)
      else .ok (p :: ps, sum, tot)

/-- Outer loop over nodes `i, i+1, …` of `getAverageNodeT_C(WeightedDistribution)`,
src/Tank.cc:263-293. -/
def avgOuter {N : ℕ} (maxH : ℚ) (T : Fin N → ℚ) :
    (i room : ℕ) → i + room = N → WDist → (sum tot : ℚ) → Res (ℚ × ℚ)
  | _, 0, _, _, sum, tot => .ok (sum, tot)
  | i, room + 1, h, d, sum, tot =>
    match avgInner maxH (((i + 1 : ℕ) : ℚ) / N) (T ⟨i, by omega⟩) ((i : ℚ) / N) d sum tot with
    | .ok (d', sum', tot') => avgOuter maxH T (i + 1) room (by omega) d' sum' tot'
    | .error e => .error e

/-- `Tank::getAverageNodeT_C(WeightedDistribution)`, src/Tank.cc:257-295. -/
def averageT {N : ℕ} (d : WDist) (T : Fin N → ℚ) : Res ℚ :=
  if hd : d = [] then .error .ub
  else
    let maxH := d.maximumHeight hd
    if maxH = 0 then .error .nan
    else match avgOuter maxH T 0 N (by omega) d 0 0 with
      | .ok (sum, tot) => if tot = 0 then .error .nan else .ok (sum / tot)
      | .error e => .error e

end WDist

/-! ## State of charge -/

/-- `HPWH::getChargePerNode`, src/HPWHUtils.cc:235-242. -/
def chargePerNode (tCold tMix tHot : ℚ) : Res ℚ :=
  if tHot < tMix then .ok 0
  else if tMix - tCold = 0 then .error .nan
  else .ok ((tHot - tCold) / (tMix - tCold))

end HPWH
