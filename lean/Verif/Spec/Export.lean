import Verif.Model.Import

/-! # Specification: what export and import should preserve -/

namespace HPWH.Spec

variable {n : ℕ}

/-- The same volume and heat losses, the same mixing on draws, the same heat exchanger. A fraction that is not
used (no mixing), or an effectiveness that is not used (no exchanger), may differ. -/
def SameTankSettings (a b : Tank n) : Prop :=
  a.volume_L = b.volume_L ∧ a.UA = b.UA ∧ a.fittingsUA = b.fittingsUA ∧
    a.mixesOnDraw = b.mixesOnDraw ∧
    (b.mixesOnDraw = true → a.mixBelowFractionOnDraw = b.mixBelowFractionOnDraw) ∧
    a.hasHeatExchanger = b.hasHeatExchanger ∧
    (b.hasHeatExchanger = true → a.heatExchangerEffectiveness = b.heatExchangerEffectiveness)

/-- What can be seen of a tank after a step: node temperatures, outlet temperature, losses. -/
def tankOutputs (t : Tank n) : Nodes n ℚ × ℚ × ℚ := (t.nodeTs, t.outletT, t.standbyLosses_kJ)

/-- A logic that compares temperatures. -/
def OnTemperature (l : Logic) : Prop := ∃ b d, l.kind = .temp b d

/-- A logic whose direction of comparison is written and read: every temperature logic, and a state-of-charge
logic that compares by `less`. -/
def DirectionKept (l : Logic) : Prop := OnTemperature l ∨ l.cmp = .less

/-- The same share of the heat goes to each node, however many nodes the tank has; the lowest heated node and
the spread of the heat are the same. -/
def SameHeatShares (a b : WDist) : Prop :=
  ∀ N, a.calcHeatDist N = b.calcHeatDist N ∧ a.findLowestNode N = b.findLowestNode N ∧
    ∀ log, Sim.findShrinkage log a N = Sim.findShrinkage log b N

/-- Two heat sources of the same kind: resistance elements of the same power, or condensers. -/
def SameKind {k : ℕ} (a b : SourceCfg n k) : Prop :=
  match a.kind, b.kind with
  | .resistance p, .resistance q => p = q
  | .condenser _, .condenser _ => True
  | _, _ => False

/-- The points of a grid in the order of its tables: the last axis varies fastest. -/
def points : List (List ℚ) → List (List ℚ)
  | [] => [[]]
  | a :: as => a.flatMap fun x => (points as).map (x :: ·)

/-- The values of a function of two variables at all points of a grid, the second varying fastest. -/
def tabulate2 {α : Type} (f : ℚ → ℚ → α) (xs ys : List ℚ) : List α := xs.flatMap fun x => ys.map fun y => f x y

/-- The same for three variables. -/
def tabulate3 {α : Type} (f : ℚ → ℚ → ℚ → α) (xs ys zs : List ℚ) : List α :=
  xs.flatMap fun x => ys.flatMap fun y => zs.map fun z => f x y z

/-- The heat put out is the power put in times the coefficient of performance. -/
def Consistent (p : Perf) : Prop := p.outputPower_W = p.cop * p.inputPower_W

/-- The same power in and out, and the same coefficient of performance where power is used at all. -/
def SamePerf (a b : Perf) : Prop :=
  a.inputPower_W = b.inputPower_W ∧ a.outputPower_W = b.outputPower_W ∧ (b.inputPower_W ≠ 0 → a.cop = b.cop)

/-- An interpolation library that gives the tabulated values at the points of the grids it accepts. -/
def ExactAtPoints (b : Btwxt) : Prop :=
  ∀ style integrated g t1 t2, b.accepts g = true → g.tables = [t1, t2] →
    (points g.axes).map (b.value style integrated g) = t1.zip t2

/-- The description of heat source `i` with its logics and links. -/
def configOf {k : ℕ} (d : SimInput k) (i : Fin k) : RsConfig :=
  match d.system with
  | .integrated x => x.configs i
  | .central x => x.configs i

/-- The description of heat source `i` proper. -/
def sourceOf {k : ℕ} (d : SimInput k) (i : Fin k) : RsSource := (configOf d i).source

/-- The compressor is the last condenser, if there is one. -/
def CompressorLast {k : ℕ} (s : Sim n k) : Prop :=
  ∀ j, s.cfg.compressorIndex = some j → (∃ c, (s.cfg.src j).kind = .condenser c) ∧
    ∀ i, j < i → ∀ c, (s.cfg.src i).kind ≠ .condenser c

/-- The performance map of heat source `i` in a description. -/
def mapOf {k : ℕ} (d : SimInput k) (i : Fin k) : Option RsMap :=
  match sourceOf d i with
  | .condenser y => y.map
  | .heatPump y => y.map
  | _ => none

end HPWH.Spec
