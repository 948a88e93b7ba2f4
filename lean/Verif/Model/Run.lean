import Verif.Model.Sim

/-! # Runs of several steps and the built-in energy check -/

namespace HPWH

open _root_.HPWH.Units

namespace Sim

variable {n k : ℕ}

/-- `HPWH::isEnergyBalanced`, src/HPWH.cc:2829-2873: draw volumes and temperatures of the two inlets,
heat content before the step, fractional tolerance. -/
def isEnergyBalanced (s : Sim n k) (drawVol1 inlet1T drawVol2 inlet2T prevHeat tol : ℚ) : Bool :=
  let qElectrical := ∑ i, KWH_TO_KJ (s.st i).energyInput_kWh
  let qExtra := KWH_TO_KJ s.extraEnergyInput_kWh
  let qEnviron := KWH_TO_KJ s.energyRemoved_kWh
  let qLost := KWH_TO_KJ s.standbyLosses_kWh
  let qWater := cpWater * rhoWater * drawVol1 * (s.tank.outletT - inlet1T) +
    cpWater * rhoWater * drawVol2 * (s.tank.outletT - inlet2T)
  let expected := prevHeat + qElectrical + qExtra + qEnviron - qLost - qWater
  let diff := |s.tank.heatContent - expected| / max prevHeat 1
  !decide (diff > tol)

/-- `HPWH::setInletT`, src/HPWH.hh:698-702. -/
def setInletT (s : Sim n k) (x : ℚ) : Sim n k := { s with inletT := x, haveInletT := true }

/-- Inputs of one step of `runNSteps`. -/
structure RunInput where
  inletT : ℚ
  draw_L : ℚ
  tankAmbient : ℚ
  sourceAmbient : ℚ
  dr : DR

/-- The inputs of the single step, with the defaults of src/HPWH.hh:667-684. -/
def RunInput.step (u : RunInput) : StepInput where
  draw_L := u.draw_L
  tankAmbient := u.tankAmbient
  sourceAmbient := u.sourceAmbient
  dr := u.dr
  inletVol2_L := 0
  inletT2 := 0
  extraHeat_W := []

/-- The overload of `runOneStep` that takes an inlet temperature, src/HPWH.hh:667-684. -/
def runOneStepAt (m : Libm) (fuel : ℕ) (s : Sim n k) (u : RunInput) : Res (Sim n k) :=
  runOneStep m fuel (s.setInletT u.inletT) u.step

/-- The accumulators of `runNSteps`, src/HPWH.cc:597-604. -/
structure RunSums (k : ℕ) where
  removed : ℚ
  standby : ℚ
  outlet : ℚ
  draw : ℚ
  runtime : Fin k → ℚ
  input : Fin k → ℚ
  output : Fin k → ℚ

/-- src/HPWH.cc:613-626. -/
def RunSums.add {n k : ℕ} (a : RunSums k) (s : Sim n k) (u : RunInput) : RunSums k where
  removed := a.removed + s.energyRemoved_kWh
  standby := a.standby + s.standbyLosses_kWh
  outlet := a.outlet + s.tank.outletT * u.draw_L
  draw := a.draw + u.draw_L
  runtime := fun j => a.runtime j + (s.st j).runtime_min
  input := fun j => a.input j + (s.st j).energyInput_kWh
  output := fun j => a.output j + (s.st j).energyOutput_kWh

/-- The loop of `runNSteps`, src/HPWH.cc:607-627. -/
def runLoop (m : Libm) (fuel : ℕ) : List RunInput → Sim n k → RunSums k → Res (Sim n k × RunSums k)
  | [], s, a => .ok (s, a)
  | u :: us, s, a => do
    let s1 ← runOneStepAt m fuel s u
    runLoop m fuel us s1 (a.add s1 u)

/-- `HPWH::runNSteps`, src/HPWH.cc:590-640. The five input arrays of length `N` are one list. Without
any draw the outlet temperature is `0/0`. -/
def runNSteps (m : Libm) (fuel : ℕ) (s : Sim n k) (us : List RunInput) : Res (Sim n k) := do
  let r ← runLoop m fuel us s ⟨0, 0, 0, 0, fun _ => 0, fun _ => 0, fun _ => 0⟩
  if r.2.draw = 0 then .error .nan
  else return { r.1 with
    energyRemoved_kWh := r.2.removed
    standbyLosses_kWh := r.2.standby
    tank := { r.1.tank with outletT := r.2.outlet / r.2.draw }
    st := fun i => { r.1.st i with
      runtime_min := r.2.runtime i
      energyInput_kWh := r.2.input i
      energyOutput_kWh := r.2.output i } }

end Sim

end HPWH
