import Mathlib.Algebra.BigOperators.Fin
import Mathlib.Data.Rat.Defs
import Mathlib.Algebra.Order.Ring.Rat
import Mathlib.Algebra.Order.Field.Rat

/-! # Specification of profiles and height-weight distributions as functions of relative height

A list of samples is read as the piecewise-constant function whose value on the `i`-th of `n` equal
slices of the height range `[0, 1]` is the `i`-th sample. A height-weight distribution is a list of
`(height, weight)` points: the weight of a point applies from the previous height (0 for the first) up
to its own height. Integrals of such functions are finite sums of `value * overlap`. -/

namespace HPWH.Spec

/-- Length of the intersection of the intervals `[lo, hi]` and `[a, b]`. -/
def overlap (lo hi a b : ℚ) : ℚ := max 0 (min hi b - max lo a)

/-- Integral over `[a, b]` of the piecewise-constant profile with the given samples. -/
def profileIntegral {n : ℕ} (v : Fin n → ℚ) (a b : ℚ) : ℚ :=
  ∑ i : Fin n, v i * overlap ((i : ℚ) / n) (((i : ℚ) + 1) / n) a b

/-- Average of the profile over `[a, b]`. -/
def profileAverage {n : ℕ} (v : Fin n → ℚ) (a b : ℚ) : ℚ := profileIntegral v a b / (b - a)

/-- Integral over `[a, b]` of the density given by `(height, weight)` points above height `prev`. -/
def densityIntegral : (prev : ℚ) → List (ℚ × ℚ) → (a b : ℚ) → ℚ
  | _, [], _, _ => 0
  | prev, (h, w) :: ds, a, b => w * overlap prev h a b + densityIntegral h ds a b

end HPWH.Spec
