import Verif.Spec.Tank

/-! # What passes through an external heater

Written without reference to the model: a portion of water taken from the tank, heated and put back. -/

namespace HPWH.Spec

/-- A portion of water: its volume, its temperature when it was taken from the tank and when it was
put back, the minutes the heater worked on it and the heat (kJ) it got. -/
structure Portion where
  volume_L : ℚ
  inletT : ℚ
  outletT : ℚ
  minutes : ℚ
  heat_kJ : ℚ

/-- The heat accounts for the rise of temperature, which is a rise; time and volume are not negative. -/
structure Portion.Sound (q : Portion) : Prop where
  heat : q.heat_kJ = waterHeat q.volume_L q.outletT - waterHeat q.volume_L q.inletT
  rise : q.inletT < q.outletT
  minutes : 0 ≤ q.minutes
  volume : 0 ≤ q.volume_L

/-- Sum of a quantity over portions. -/
def total (f : Portion → ℚ) (qs : List Portion) : ℚ := (qs.map f).sum

/-- A report (volume moved, minutes, heat, mean temperatures in and out) describes the portions: the
volume, the minutes and the heat are the sums, the temperatures are means over time. -/
structure Describes (volume_L minutes heat_kJ inletT outletT : ℚ) (qs : List Portion) : Prop where
  volume : volume_L = total (·.volume_L) qs
  time : minutes = total (·.minutes) qs
  heat : heat_kJ = total (·.heat_kJ) qs
  inlet : inletT * minutes = total (fun q => q.inletT * q.minutes) qs
  outlet : outletT * minutes = total (fun q => q.outletT * q.minutes) qs

end HPWH.Spec
