import Verif.Model.Init

/-! # Heaters built in (`initLegacy`, src/HPWHpresets.cc:343-4374)

Each model that `initLegacy` knows is a record of the numbers its branch sets (`Preset`); the records are in
`Verif.Model.PresetTable`. What all branches have in common is here. As in `Verif.Model.Init`, texts and product
information are left out, and a call that ends with an error has no state. -/

namespace HPWH

open _root_.HPWH.Units

/-- The ways in which the performance of a built-in heat pump is given: polynomials, the regressions of central
single-pass and multi-pass systems, or a table for Btwxt (which is not modelled, see `initLegacy`). -/
inductive PerfData
  | none
  | polys (ps : PolySet)
  | singlePass (p : Poly)
  | multiPass (p : Poly)
  | grid

/-- A heat source of a model: its settings, and its performance if it is a heat pump. -/
structure SourceData (n k : ℕ) where
  cfg : SourceCfg n k
  perf : PerfData

/-- A built-in model: `n + 1` nodes and `k` heat sources. What most branches do not set has the value of
`setAllDefaults`. -/
structure Preset where
  n : ℕ
  k : ℕ
  setpoint : ℚ
  volume_L : ℚ
  UA : ℚ
  volumeFixed : Bool := true
  mixesOnDraw : Bool
  setpointFixed : Bool := false
  canScale : Bool := false
  hasHeatExchanger : Bool := false
  heatExchangerEffectiveness : ℚ := 9 / 10
  /-- temperature of the tank, if other than the setpoint -/
  initial : Option ℚ := none
  isStorageTank : Bool := false
  /-- gallons, if the branch calls `setTankSize_adjustUA` -/
  resize : Option ℚ := none
  src : Fin k → SourceData n k

/-- `HeatSource::setCondensity`, src/HPWHHeatSource.cc:231-234. Weights that sum to zero have no distribution; no branch
gives any. -/
def condensity (xs : List ℚ) : WDist :=
  match WDist.ofNodes xs with
  | .ok d => d
  | .error _ => []

/-- `std::make_shared<TempBasedHeatingLogic>(desc, nodeWeights, …)` with nodes of weight 1,
src/HPWHHeatingLogic.cc:123-163. -/
def nodesLogic (description : String) (nodes : List ℤ) (decisionPoint : ℚ) (isAbsolute : Bool) (cmp : Cmp)
    (isHTS : Bool) : Logic :=
  tempLogic description (nodeWeightDist (nodes.map fun j => ⟨j, 1⟩)) decisionPoint isAbsolute cmp isHTS

/-- The map of `Condenser::setupDefrostMap` with its default argument, src/Condenser.cc:989-996. -/
def standardDefrost : List (ℚ × ℚ) := [(17, 1), (35, 8865 / 10000), (47, 1)]

/-- `MAXOUTLET_R410A`, src/HPWH.cc:72. -/
def maxOutletR410A : ℚ := F_TO_C 140

/-- `MAXOUTLET_R744`, src/HPWH.cc:73. -/
def maxOutletR744 : ℚ := F_TO_C 190

/-- `HPWH::tier3`, src/HPWH.cc:152-155. -/
def tier3 : PolySet :=
  [⟨50, [187064124 / 1000000, 1939747 / 1000000, 0], [522288834 / 100000000, -(243008 / 10000000), 0]⟩,
   ⟨675 / 10, [1529195905 / 10000000, 2476598 / 1000000, 0], [6643934986 / 1000000000, -(32373288 / 1000000000), 0]⟩,
   ⟨95, [99263895 / 1000000, 3320221 / 1000000, 0], [887700829 / 100000000, -(450586 / 10000000), 0]⟩]

/-- `HPWH::tier4`, src/HPWH.cc:157-159. -/
def tier4 : PolySet :=
  [⟨50, [1269 / 10, 2215 / 1000, 0], [6931 / 1000, -(3395 / 100000), 0]⟩,
   ⟨675 / 10, [1166 / 10, 2467 / 1000, 0], [8833 / 1000, -(4431 / 100000), 0]⟩,
   ⟨95, [1004 / 10, 2863 / 1000, 0], [11822 / 1000, -(6059 / 100000), 0]⟩]

/-- `evaluatePerformance` of a heat pump with these settings: `PerformancePolySet::make`, src/HPWH.hh:1293-1298,
`PerformancePoly_CWHS_SP::make` and `PerformancePoly_CWHS_MP::make`, src/HPWH.cc:4527-4560. Where the function throws, a
heat pump without performance. `grid` stands for the tables. -/
def PerfData.make (grid : ℚ → ℚ → ℚ → Perf) (c : CondCfg) : PerfData → ℚ → ℚ → ℚ → Perf
  | .none => fun _ _ _ => ⟨0, 0, 0⟩
  | .polys ps => ps.make
  | .singlePass p => fun setpoint air water =>
    match p.singlePass setpoint c.hotSideOffset air water with
    | .ok r => r
    | .error _ => ⟨0, 0, 0⟩
  | .multiPass p => fun _ air water =>
    match p.multiPass air water with
    | .ok r => r
    | .error _ => ⟨0, 0, 0⟩
  | .grid => grid

/-- The heat source with its performance. -/
def SourceData.source {n k : ℕ} (grid : ℚ → ℚ → ℚ → Perf) (d : SourceData n k) : SourceCfg n k :=
  match d.cfg.kind with
  | .resistance _ => d.cfg
  | .condenser c => { d.cfg with kind := .condenser { c with evaluate := d.perf.make grid c } }

namespace Preset

variable {n₀ k₀ : ℕ}

/-- What a branch of `initLegacy` sets before it changes the size of the tank, after `setAllDefaults`,
src/HPWHpresets.cc:345-347; `base` is the simulator it is called on. -/
def sim (grid : ℚ → ℚ → ℚ → Perf) (base : Sim n₀ k₀) (p : Preset) : Sim p.n p.k :=
  let s := base.fresh fun i => (p.src i).source grid
  { s with
    setpoint := p.setpoint
    tank :=
      { s.tank with
        volume_L := p.volume_L
        UA := p.UA
        volumeFixed := p.volumeFixed
        mixesOnDraw := p.mixesOnDraw
        hasHeatExchanger := p.hasHeatExchanger
        heatExchangerEffectiveness := p.heatExchangerEffectiveness }
    cfg :=
      { s.cfg with
        setpointFixed := p.setpointFixed
        canScale := p.canScale
        isStorageTank := p.isStorageTank } }

/-- The size of central systems, e.g. src/HPWHpresets.cc:771; it does not depend on the heat sources, which some
branches set up first. -/
def sized (pow : ℚ → ℚ → ℚ) (grid : ℚ → ℚ → ℚ → Perf) (base : Sim n₀ k₀) (p : Preset) : Res (Sim p.n p.k) :=
  match p.resize with
  | none => .ok (p.sim grid base)
  | some gal => (p.sim grid base).setTankSizeAdjustUA pow .GAL gal false

/-- Temperature of the tank, src/HPWHpresets.cc:4353-4357. -/
def fill (p : Preset) (s : Sim p.n p.k) : Sim p.n p.k :=
  match p.initial with
  | none => s.resetTankToSetpoint
  | some T => { s with tank := { s.tank with nodeTs := fun _ => T } }

/-- `initLegacy` for this model, src/HPWHpresets.cc:343-4374. -/
def initLegacy (m : Libm) (pow : ℚ → ℚ → ℚ) (grid : ℚ → ℚ → ℚ → Perf) (base : Sim n₀ k₀) (p : Preset) :
    Res (Sim p.n p.k) := do
  let s ← p.sized pow grid base
  (p.fill s).finish m pow

end Preset

end HPWH
