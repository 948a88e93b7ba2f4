import Verif.Props.TankUpdate
import Verif.Lemmas.AddHeat

/-! # C10–C12: adding heat at and above a node -/

namespace HPWH

open Spec

variable {n : ℕ}

/-- A stratified sample tank. -/
def warmTank : Tank 3 := { sampleTank with nodeTs := ![20, 30, 40, 50] }

/-- An inverted sample tank with inversion mixing off. -/
def invertedTank : Tank 3 :=
  { sampleTank with nodeTs := ![20, 30, 10, 50], doInversionMixing := false }

theorem warmTank_wellFormed : warmTank.WellFormed :=
  sampleTank_wellFormed.of_cfg rfl

/-- **C10.** Offering `q ≥ 0` kJ to a stratified tank at a node: the unused amount returned lies in
`[0, q]` and the heat content of the tank rises by exactly the rest. (Termination is part of the
model: `addHeatAboveNode` is a total function by structural recursion on the nodes above.) -/
theorem C10_addHeat_accounts (t : Tank n) (ht : t.Consistent) (hs : Stratified t.nodeTs)
    (q : ℚ) (hq : 0 ≤ q) (node : Fin (n + 1)) (cap : ℚ) :
    0 ≤ (t.addHeatAboveNode q node cap).1 ∧ (t.addHeatAboveNode q node cap).1 ≤ q ∧
    tankHeat t.volume_L (t.addHeatAboveNode q node cap).2.nodeTs =
      tankHeat t.volume_L t.nodeTs + (q - (t.addHeatAboveNode q node cap).1) := by
  obtain ⟨-, h⟩ := t.addHeatAboveNode_spec q node cap ht.nodeCp_pos
    ((stratified_iff_monotone _).mp hs) hq
  refine ⟨h.nonneg, h.le, ?_⟩
  rw [ht.tankHeat_eq, ht.tankHeat_eq]
  exact h.energy

example : warmTank.Consistent ∧ Stratified warmTank.nodeTs ∧
    0 < (warmTank.addHeatAboveNode 100000 1 55).1 ∧
    (warmTank.addHeatAboveNode 100000 1 55).1 < 100000 := by
  refine ⟨warmTank_wellFormed.toConsistent, ?_⟩
  unfold Stratified; decide +kernel

/-- **C11.** Adding heat above a node changes nothing but node temperatures; a changed node ends at
or below the cap; no node cools; nodes below the given one are untouched; the tank stays stratified;
and heat is only returned unused when every node at or above the given one has reached the cap. From the given
node on, all nodes colder than some level are brought to this level and the others stay as they are. -/
theorem C11_addHeat_cap (t : Tank n) (ht : t.Consistent) (hs : Stratified t.nodeTs)
    (q : ℚ) (hq : 0 ≤ q) (node : Fin (n + 1)) (cap : ℚ) :
    (t.addHeatAboveNode q node cap).2 =
      { t with nodeTs := (t.addHeatAboveNode q node cap).2.nodeTs } ∧
    (∀ k, (t.addHeatAboveNode q node cap).2.nodeTs k ≠ t.nodeTs k →
      (t.addHeatAboveNode q node cap).2.nodeTs k ≤ cap) ∧
    (∀ k, t.nodeTs k ≤ (t.addHeatAboveNode q node cap).2.nodeTs k) ∧
    (∀ k, k < node → (t.addHeatAboveNode q node cap).2.nodeTs k = t.nodeTs k) ∧
    Stratified (t.addHeatAboveNode q node cap).2.nodeTs ∧
    (0 < (t.addHeatAboveNode q node cap).1 →
      ∀ k, node ≤ k → cap ≤ (t.addHeatAboveNode q node cap).2.nodeTs k) ∧
    (∃ level, ∀ k, node ≤ k → (t.addHeatAboveNode q node cap).2.nodeTs k = max (t.nodeTs k) level) := by
  obtain ⟨he, h⟩ := t.addHeatAboveNode_spec q node cap ht.nodeCp_pos
    ((stratified_iff_monotone _).mp hs) hq
  exact ⟨he, fun k hk => (h.cap k).resolve_left hk, h.warmer, h.below,
    (stratified_iff_monotone _).mpr h.mono, h.full, h.level⟩

/-- Finding (C10 needs its stratification hypothesis): on an inverted profile, which the library
accepts when inversion mixing is off, adding heat creates energy: the tank gains over 4000 kJ more
than the 10000 kJ it was offered. -/
theorem C10_inverted_creates_energy :
    invertedTank.Consistent ∧ invertedTank.doInversionMixing = false ∧
      (invertedTank.addHeatAboveNode 10000 0 60).1 = 0 ∧
      tankHeat invertedTank.volume_L (invertedTank.addHeatAboveNode 10000 0 60).2.nodeTs >
        tankHeat invertedTank.volume_L invertedTank.nodeTs + 10000 + 4000 := by
  refine ⟨⟨by decide +kernel, by decide +kernel, by decide +kernel⟩, ?_⟩
  decide +kernel

/-- **C12.** Extra heat (no cap) at a node of a stratified tank is stored entirely: the heat content
rises by exactly the amount added. Nodes never cool, nodes below are untouched, the tank stays
stratified, and nothing but node temperatures changes. From the given node on, all nodes colder than some level
are brought to this level and the others stay as they are. -/
theorem C12_extra_heat_stored (t : Tank n) (ht : t.Consistent) (hs : Stratified t.nodeTs)
    (q : ℚ) (hq : 0 ≤ q) (node : Fin (n + 1)) :
    tankHeat t.volume_L (t.addExtraHeatAboveNode q node).nodeTs =
      tankHeat t.volume_L t.nodeTs + q ∧
    (∀ k, t.nodeTs k ≤ (t.addExtraHeatAboveNode q node).nodeTs k) ∧
    (∀ k, k < node → (t.addExtraHeatAboveNode q node).nodeTs k = t.nodeTs k) ∧
    Stratified (t.addExtraHeatAboveNode q node).nodeTs ∧
    t.addExtraHeatAboveNode q node =
      { t with nodeTs := (t.addExtraHeatAboveNode q node).nodeTs } ∧
    (∃ level, ∀ k, node ≤ k → (t.addExtraHeatAboveNode q node).nodeTs k = max (t.nodeTs k) level) := by
  obtain ⟨he, h⟩ := t.addExtraHeatAboveNode_spec q node ht.nodeCp_pos
    ((stratified_iff_monotone _).mp hs) hq
  refine ⟨?_, h.warmer, h.below, (stratified_iff_monotone _).mpr h.mono, he, h.level⟩
  rw [ht.tankHeat_eq, ht.tankHeat_eq]
  exact h.energy

example : warmTank.Consistent ∧ Stratified warmTank.nodeTs ∧
    warmTank.nodeTs 3 < (warmTank.addExtraHeatAboveNode 100000 1).nodeTs 3 := by
  refine ⟨warmTank_wellFormed.toConsistent, ?_⟩
  unfold Stratified; decide +kernel

end HPWH
