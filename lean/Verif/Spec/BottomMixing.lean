import Verif.Model.Tank

/-! # Mixing at the bottom of the tank (C108) -/

namespace HPWH.Spec

variable {n : ℕ}

/-- `m` is the number of nodes that lie wholly within the lowest fraction `f` of a tank of `N` nodes. -/
def NodesWithin (N : ℕ) (f : ℚ) (m : ℕ) : Prop := (m : ℚ) ≤ N * f ∧ N * f < m + 1

/-- The water at `T` with its lowest `m` nodes mixed by a third: every difference between two of them shrinks by a third,
their heat is the same, and the water above is as it was. -/
structure BottomMixed (m : ℕ) (T T' : Nodes n ℚ) : Prop where
  above : ∀ i, m ≤ i.val → T' i = T i
  differences : ∀ i j, i.val < m → j.val < m → T' i - T' j = 2 / 3 * (T i - T j)
  heat : ∑ i, T' i = ∑ i, T i

end HPWH.Spec
