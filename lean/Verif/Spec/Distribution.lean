import Verif.Model.Utils
import Verif.Spec.Profile

/-! # Specification vocabulary for height-weight distributions

`densityIntegral 0 d.rel a b` (Spec/Profile.lean) is the integral of the weight density of the
distribution `d` between the relative heights `a` and `b`. -/

namespace HPWH.WDist

/-- A distribution the library regards as valid and whose weights are not negative. -/
structure Proper (d : WDist) : Prop where
  valid : d.isValid = true
  nonneg : ∀ p ∈ d, 0 ≤ p.weight

/-- Heights relative to the top of the distribution. -/
def rel (d : WDist) : List (ℚ × ℚ) :=
  match d.getLast? with
  | none => []
  | some q => d.map fun p => (p.height / q.height, p.weight)

/-- Share of node `k` of `N`: the weight between its heights divided by all the weight. -/
def share (d : WDist) (N : ℕ) (k : ℕ) : ℚ :=
  Spec.densityIntegral 0 d.rel ((k : ℚ) / N) (((k : ℚ) + 1) / N) / Spec.densityIntegral 0 d.rel 0 1

end HPWH.WDist
