import Verif.Model.Utils

/-! # Specification vocabulary for averages over the tank -/

namespace HPWH.Spec

/-- The height-weight distribution of layers of equal height, from the bottom (or the `i`-th layer) up. -/
def layersFrom : (i : ℕ) → List ℚ → WDist
  | _, [] => []
  | i, w :: ws => ⟨(i : ℚ) + 1, w⟩ :: layersFrom (i + 1) ws

/-- Layers of equal height that fill the tank. -/
def equalLayers (w : List ℚ) : WDist := layersFrom 0 w

/-- The mean temperature of the `j`-th of `m` layers of equal height, given the node temperatures: the integral of the
temperature over the layer divided by its height. -/
def layerMean {n : ℕ} (T : Fin (n + 1) → ℚ) (m j : ℕ) : ℚ :=
  m * ∑ i : Fin (n + 1), T i *
    max 0 (min (((i : ℚ) + 1) / (n + 1)) (((j : ℚ) + 1) / m) - max ((i : ℚ) / (n + 1)) ((j : ℚ) / m))

end HPWH.Spec
