import Verif.Model.Fit
import Verif.Model.Commands

/-! # The `make` command

`make`, src/hpwh/make.cpp: fit the performance of the compressor to an energy factor, with the metric of the fit being the
24-hour test of the simulator itself. -/

namespace HPWH

variable {n k : ℕ}

namespace Sim

/-- `getCompressor`, src/HPWH.cc:1802-1811: the first heat source that is a condenser. -/
def firstCondenser (s : Sim n k) : Option (Fin k) :=
  (List.finRange k).find? fun i => match (s.cfg.src i).kind with
    | .condenser _ => true
    | .resistance _ => false

/-- `compressor->evaluatePerformance = perfPolySet.make()`, src/HPWH.cc:4353, 4366, for heat source `i` (`use` differs in
that it follows changes of the polynomials, src/HPWH.hh:1300-1304). -/
def withPolys (s : Sim n k) (i : Fin k) (ps : PolySet) : Sim n k :=
  match (s.cfg.src i).kind with
  | .condenser c =>
    { s with cfg := { s.cfg with src := Function.update s.cfg.src i { s.cfg.src i with
        kind := .condenser { c with evaluate := ps.make } } } }
  | .resistance _ => s

/-- `EF_Metric::evaluate`, src/HPWHFitter.hh:173-177, with the given polynomials in use (`use` refers to them,
src/HPWH.hh:1300-1304): the energy factor of a 24-hour test. The test starts from where the last one ended. -/
def efTest (m : Libm) (fuel limit : ℕ) (c : TestConditions) (d : Designation) (i : Fin k) (ps : PolySet)
    (s : Sim n k) : Res (ℚ × Sim n k) :=
  (run24hrTest m fuel limit c d (s.withPolys i ps)) >>= fun r => .ok (r.2.EF, r.1)

/-- `Condenser::getPerformance` of heat source `i` with the given polynomials, src/HPWH.cc:4370-4377. -/
def polysAt (s : Sim n k) (i : Fin k) (ambientT : ℚ) (ps : PolySet) (T : ℚ) : Res Perf :=
  match ((s.withPolys i ps).cfg.src i).kind with
  | .condenser c => c.getPerformance (s.cfg.src i).airflowFreedom s.setpoint ambientT T
  | .resistance _ => .error .error

/-- The largest setpoint of the compressor, src/HPWH.cc:4371. -/
def maxSetpointOf (s : Sim n k) (i : Fin k) : ℚ :=
  match (s.cfg.src i).kind with
  | .condenser c => c.maxSetpoint
  | .resistance _ => 0

/-- `makeGenericEF`, src/HPWH.cc:4338-4380, of a simulator: the simulator and the polynomials. -/
def makeGenericEF (m : Libm) (fuel limit : ℕ) (c : TestConditions) (d : Designation) (target : ℚ) (ps : PolySet)
    (s : Sim n k) : Res (Sim n k × PolySet) :=
  match s.firstCondenser with
  | none => .error .error
  | some i =>
    (PolySet.makeGenericEF (efTest m fuel limit c d i) (s.polysAt i c.ambientT) (s.maxSetpointOf i) c.ambientT target ps s) >>=
      fun r => .ok (r.2.withPolys i r.1, r.1)

/-- `makeGenericUEF`, src/HPWH.cc:4387-4412, of a simulator. -/
def makeGenericUEF (m : Libm) (fuel limit : ℕ) (d : Designation) (target : ℚ) (ps : PolySet) (s : Sim n k) :
    Res (Sim n k × PolySet) :=
  match s.firstCondenser with
  | none => .error .error
  | some i => do
    let j ← ps.ambientIndex testConditionsUEF.ambientT
    let x0 ← ps.cop0 j
    let r ← makeGenericEF m fuel limit testConditionsUEF d target ps s
    let x1 ← r.2.cop0 j
    let qs ← PolySet.addOthers (x1 - x0) j 0 r.2
    return (r.1.withPolys i qs, qs)

/-- `makeGenericE50_UEF_E95`, src/HPWH.cc:4414-4427. -/
def makeGenericThree (m : Libm) (fuel limit : ℕ) (d : Designation) (targetE50 targetUEF targetE95 : ℚ) (ps : PolySet)
    (s : Sim n k) : Res (Sim n k × PolySet) := do
  let r1 ← makeGenericEF m fuel limit testConditionsE50 d targetE50 ps s
  let r2 ← makeGenericEF m fuel limit testConditionsUEF d targetUEF r1.2 r1.1
  makeGenericEF m fuel limit testConditionsE95 d targetE95 r2.2 r2.1

end Sim

/-- What `make` leaves: the simulator, the first-hour rating if it was found, the polynomials, the report of the final
test, the file of results, and the file the made model is written to. -/
structure Made (n k : ℕ) where
  sim : Sim n k
  rating : Option (ℚ × Designation)
  polys : PolySet
  summary : Sim.TestSummary k
  results : Option (List Char)
  model : Option (List Char)

/-- `make`, src/hpwh/make.cpp:115-232. -/
def make (m : Libm) (fuel limit : ℕ) (order : List Designation) (a : MeasureArgs) (target : ℚ) (ps : PolySet) (s : Sim n k) :
    Res (Made n k) := do
  let p ← findProfile m fuel limit order a.drawProfileName s
  let g ← Sim.makeGenericEF m fuel limit (conditionsNamed a.testConfig) p.2.1 target ps p.1
  let t ← Sim.run24hrTest m fuel limit (conditionsNamed a.testConfig) p.2.1 g.1
  return { sim := t.1, rating := p.2.2, polys := g.2, summary := t.2, results := resultsPath a.outputDir a.resultsFilename
           model := if a.saveTestData = true ∧ a.outputDir ≠ [] then some (a.outputDir ++ "/generic.json".toList) else none }

/-- `tier == 3 ? tier3 : tier4`, src/hpwh/make.cpp:100. -/
def tierPolys (tier : ℤ) : PolySet := if tier = 3 then tier3 else tier4

end HPWH
