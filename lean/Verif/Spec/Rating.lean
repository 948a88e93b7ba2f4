import Verif.Model.Rating
import Mathlib.Algebra.Order.Floor.Semiring
import Mathlib.Data.Rat.Floor
import Mathlib.Algebra.BigOperators.Fin

/-! # Specification vocabulary for the standard tests

One gallon is 3.78541 galLitres. A draw is a start time (minutes), a volume (gallons) and a flow rate
(gallons per minute). -/

namespace HPWH.Spec

/-- Litres per gallon. -/
def galLitres (gallons : ℚ) : ℚ := gallons * (378541 / 100000)

/-- Litres drawn per minute: the flow rate, but no more than the tank holds. -/
def perMinute (tank_L : ℚ) (d : Draw) : ℚ := min (galLitres d.flowRate_gal_per_min) tank_L

/-- Minutes a draw takes, at least one. -/
def minutes (tank_L : ℚ) (d : Draw) : ℕ := max 1 ⌈galLitres d.volume_gal / perMinute tank_L d⌉₊

/-- The minutes in which the draws of a pattern begin, if none may begin before minute `free`: a draw
begins at its start time, or one minute after the end of the one before if that is later. -/
def begins (tank_L : ℚ) : (free : ℕ) → List Draw → List (Draw × ℕ)
  | _, [] => []
  | free, d :: ds =>
    let b := max free ⌈d.startTime_min⌉₊
    (d, b) :: begins tank_L (b + minutes tank_L d + 1) ds

/-- Volume drawn before minute `t` by a draw that begins in minute `b`. -/
def drawnBefore (tank_L : ℚ) (d : Draw) (b t : ℕ) : ℚ :=
  min (galLitres d.volume_gal) (perMinute tank_L d * ((t - b : ℕ) : ℚ))

/-- Volume drawn in minute `t` by a draw that begins in minute `b`. -/
def drawnIn (tank_L : ℚ) (t : ℕ) (x : Draw × ℕ) : ℚ :=
  drawnBefore tank_L x.1 x.2 (t + 1) - drawnBefore tank_L x.1 x.2 t

/-- Volume a pattern prescribes for minute `t`. -/
def prescribed (tank_L : ℚ) (pattern : List Draw) (t : ℕ) : ℚ :=
  ((begins tank_L 0 pattern).map (drawnIn tank_L t)).sum

/-- Gallons per day of the four usage classes. -/
def nominalGallons : Designation → ℚ
  | .verySmall => 10
  | .low => 38
  | .medium => 55
  | .high => 84

/-- Usage classes in order. -/
def rank : Designation → ℕ
  | .verySmall => 0
  | .low => 1
  | .medium => 2
  | .high => 3

/-- A pattern that makes sense: draws of positive volume and flow. -/
def Sensible (pattern : List Draw) : Prop :=
  ∀ d ∈ pattern, 0 < d.volume_gal ∧ 0 < d.flowRate_gal_per_min

instance (p : List Draw) : Decidable (Sensible p) := by unfold Sensible; infer_instance

end HPWH.Spec
