import Verif.Model.Settings

/-! # Read-outs of the tank: averages by a list of weights and the inlet nodes -/

namespace HPWH

variable {n k : ℕ}

namespace Tank

/-- `Tank::getAverageNodeT_C(const std::vector<double>&)`, src/Tank.cc:241-254: the node temperatures are resampled to
as many values as there are weights, and the products of weight and value are added up. -/
def averageByWeights (t : Tank n) (w : List ℚ) : Res ℚ := do
  let T ← resample (fun _ : Fin w.length => (0 : ℚ)) t.nodeTs
  return ∑ j : Fin w.length, w.get j * T j

/-- `Tank::getInletHeight`, src/Tank.cc:337-348. -/
def getInletHeight (t : Tank n) (whichInlet : ℤ) : Res ℕ :=
  if whichInlet = 1 then .ok t.inletHeight
  else if whichInlet ≠ 2 then .error .error
  else .ok t.inlet2Height

end Tank

namespace Sim

/-- `getAverageTankTemp_C()`, src/HPWH.cc:2151. -/
def getAverageTankTemp (s : Sim n k) : ℚ := s.tank.averageNodeT

/-- `getAverageTankTemp_C(const std::vector<double>&)`, src/HPWH.cc:2153-2156. -/
def getAverageTankTempByWeights (s : Sim n k) (w : List ℚ) : Res ℚ := s.tank.averageByWeights w

/-- `getAverageTankTemp_C(const Distribution&)`, src/HPWH.cc:2163-2166. -/
def getAverageTankTempByDist (s : Sim n k) (d : Dist) : Res ℚ := Plant.averageDist s.tank.nodeTs d

/-- `getInletHeight`, src/HPWH.cc:1332. -/
def getInletHeight (s : Sim n k) (whichInlet : ℤ) : Res ℕ := s.tank.getInletHeight whichInlet

end Sim

end HPWH
