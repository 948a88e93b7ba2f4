import Verif.Model.Poly
import Mathlib.Data.List.Pairwise
import Mathlib.Data.List.Chain

/-! # Specification of performance given by polynomials -/

namespace HPWH.Spec

/-- Temperature in °F. -/
def fahrenheit (t_C : ℚ) : ℚ := t_C * (9 / 5) + 32

/-- The quadratic with coefficients `c`. -/
def quadraticAt (c : List ℚ) (x : ℚ) : ℚ := c.getD 0 0 + c.getD 1 0 * x + c.getD 2 0 * x ^ 2

/-- The straight line through `(x0, y0)` and `(x1, y1)`, at `x`. -/
def lineAt (x0 y0 x1 y1 x : ℚ) : ℚ := y0 * ((x1 - x) / (x1 - x0)) + y1 * ((x - x0) / (x1 - x0))

/-- At least two entries, at increasing temperatures, all with their three coefficients. -/
structure ProperPolys (ps : PolySet) : Prop where
  two : 2 ≤ ps.length
  increasing : ps.Pairwise fun p q => p.T_F < q.T_F
  coefficients : ∀ p ∈ ps, 3 ≤ p.input.length ∧ 3 ≤ p.cop.length

/-- The performance on the line between two entries. -/
structure OnLine (p q : Poly) (externalT heatSourceT : ℚ) (r : Perf) : Prop where
  cop : r.cop = lineAt p.T_F (quadraticAt p.cop (fahrenheit heatSourceT))
    q.T_F (quadraticAt q.cop (fahrenheit heatSourceT)) (fahrenheit externalT)
  input : r.inputPower_W = lineAt p.T_F (quadraticAt p.input (fahrenheit heatSourceT))
    q.T_F (quadraticAt q.input (fahrenheit heatSourceT)) (fahrenheit externalT)
  output : r.outputPower_W = r.cop * r.inputPower_W

/-- The terms of the regression of a single-pass central system: powers of outside, outlet and inlet
temperature. -/
def singlePassTerms : List (ℕ × ℕ × ℕ) :=
  [(0, 0, 0), (1, 0, 0), (0, 1, 0), (0, 0, 1), (2, 0, 0), (0, 2, 0), (0, 0, 2), (1, 1, 0), (1, 0, 1),
   (0, 1, 1), (1, 1, 1)]

/-- The terms of the regression of a multi-pass central system: powers of outside and inlet temperature. -/
def multiPassTerms : List (ℕ × ℕ) := [(0, 0), (1, 0), (0, 1), (2, 0), (0, 2), (1, 1)]

end HPWH.Spec
