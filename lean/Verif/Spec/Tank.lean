import Mathlib.Algebra.BigOperators.Fin
import Mathlib.Data.Rat.Defs
import Mathlib.Algebra.Order.Ring.Rat

/-! # Specification vocabulary for a stratified tank

Written without reference to the model: a tank profile is a function from node indices
(0 = bottom) to temperatures. -/

namespace HPWH.Spec

/-- Every node is at least as warm as each node below it. -/
def Stratified {n : ℕ} {α : Type} [LE α] (T : Fin (n + 1) → α) : Prop :=
  ∀ i j : Fin (n + 1), i < j → T i ≤ T j

/-- Every node temperature lies in `[lo, hi]`. -/
def Within {n : ℕ} (T : Fin (n + 1) → ℚ) (lo hi : ℚ) : Prop := ∀ i, lo ≤ T i ∧ T i ≤ hi

/-- Heat (kJ, relative to 0 °C) of a volume of water: density 0.995 kg/L, specific heat
4.180 kJ/(kg K). -/
def waterHeat (volume_L T : ℚ) : ℚ := 4180 / 1000 * (995 / 1000) * volume_L * T

/-- Heat content of a tank of the given volume divided evenly into the nodes of the profile. -/
def tankHeat {n : ℕ} (volume_L : ℚ) (T : Fin (n + 1) → ℚ) : ℚ :=
  ∑ i, waterHeat (volume_L / (n + 1)) (T i)

end HPWH.Spec
