import Verif.Model.Tank
import Verif.Spec.Tank
import Verif.Lemmas.Mix

/-! # C01, C02: inversion mixing -/

namespace HPWH

open Spec

variable {n : ℕ}

theorem stratified_iff_monotone {α : Type} [LinearOrder α] (T : Nodes n α) :
    Stratified T ↔ Monotone T := by
  constructor
  · intro h i j hij
    rcases eq_or_lt_of_le hij with rfl | h'
    · exact le_rfl
    · exact h i j h'
  · intro h i j hij
    exact h hij.le

/-- **C01.** Over any linearly ordered temperature type and with any averaging arithmetic
(`M` is arbitrary), the inversion-removing loop ends within as many sweeps as there are nodes,
and the result is stratified. `mixLoop M p T` runs at most `p` sweeps and is `none` if inversions
were still being removed in sweep `p`. -/
theorem C01_mixing_terminates_stratified {α σ : Type} [LinearOrder α] (M : Mixer α σ)
    (T : Nodes n α) :
    ∃ T', mixLoop M (n + 1) T = some T' ∧ Stratified T' :=
  ⟨_, mixInversionsWith_spec M T,
    (stratified_iff_monotone _).mpr (mixInversionsWith_monotone M T)⟩

/-- The sweep limit does not influence the result: any larger limit gives the same answer. -/
theorem C01_mixing_limit_irrelevant {α σ : Type} [LinearOrder α] (M : Mixer α σ)
    (T : Nodes n α) (p q : ℕ) (T' : Nodes n α) (h : mixLoop M p T = some T') (hpq : p ≤ q) :
    mixLoop M q T = some T' := by
  induction p generalizing T q with
  | zero => simp [mixLoop] at h
  | succ p ih =>
    obtain ⟨q, rfl⟩ : ∃ q', q = q' + 1 := ⟨q - 1, by omega⟩
    rw [mixLoop] at h ⊢
    by_cases hf : (sweep M T).2
    · simp only [hf, if_true] at h ⊢
      exact ih _ _ h (by omega)
    · simpa [hf] using h

/-- A non-trivial instance: two sweeps are needed and the deliberately wrong "average" (the
maximum of the two last temperatures seen) still gives a stratified result. -/
example : mixLoop (n := 3) (α := ℤ) (σ := ℤ)
    { init := 0, push := fun a t => max a t, mean := id } 4 ![3, 5, 1, 2] ≠ none := by
  decide

/-- **C02.** With inversion mixing enabled, in a tank of non-zero volume: the heat content is
unchanged; no temperature outside the initial range appears; the result is stratified. -/
theorem C02_mixing_conserves (t : Tank n) (hv : t.volume_L ≠ 0) (hmix : t.doInversionMixing) :
    tankHeat t.volume_L t.mixInversions.nodeTs = tankHeat t.volume_L t.nodeTs ∧
    t.mixInversions.heatContent = t.heatContent ∧
    (∀ lo hi, Within t.nodeTs lo hi → Within t.mixInversions.nodeTs lo hi) ∧
    Stratified t.mixInversions.nodeTs := by
  have hm : t.volume_L / t.numNodes * rhoWater ≠ 0 := by
    have : t.numNodes ≠ 0 := by unfold Tank.numNodes; positivity
    have h2 : rhoWater ≠ 0 := by norm_num [rhoWater]
    positivity
  have hsum := mixInversionsWith_sum _ hm t.nodeTs
  refine ⟨?_, ?_, ?_, ?_⟩
  · simp only [Tank.mixInversions, hmix, if_true, tankHeat, waterHeat, ← Finset.mul_sum, hsum]
  · simp only [Tank.mixInversions, hmix, if_true, Tank.heatContent, Tank.averageNodeT, hsum]
    rfl
  · intro lo hi hb
    simp only [Tank.mixInversions, hmix, if_true]
    exact fun k => mixInversionsWith_bounds _ hm t.nodeTs lo hi hb k
  · simp only [Tank.mixInversions, hmix, if_true]
    exact (stratified_iff_monotone _).mpr (mixInversionsWith_monotone _ _)

/-- **C02.** A stratified tank is left untouched, so mixing twice is mixing once; with inversion
mixing disabled nothing changes. -/
theorem C02_mixing_idempotent (t : Tank n) :
    (Stratified t.nodeTs → t.mixInversions = t) ∧
    t.mixInversions.mixInversions = t.mixInversions ∧
    (t.doInversionMixing = false → t.mixInversions = t) := by
  have key : ∀ u : Tank n, Stratified u.nodeTs → u.mixInversions = u := by
    intro u hu
    unfold Tank.mixInversions
    split
    · rw [mixInversionsWith_of_monotone _ _ ((stratified_iff_monotone _).mp hu)]
    · rfl
  refine ⟨key t, ?_, ?_⟩
  · by_cases hmix : t.doInversionMixing
    · apply key
      simp only [Tank.mixInversions, hmix, if_true]
      exact (stratified_iff_monotone _).mpr (mixInversionsWith_monotone _ _)
    · simp [Tank.mixInversions, hmix]
  · intro h
    simp [Tank.mixInversions, h]

/-- A concrete tank used to show that hypotheses are satisfiable: 4 nodes, 200 L, inverted. -/
def sampleTank : Tank 3 where
  volume_L := 200
  nodeTs := ![30, 50, 10, 20]
  standbyLosses_kJ := 0
  mixesOnDraw := true
  mixBelowFractionOnDraw := 1 / 2
  doInversionMixing := true
  doConduction := true
  volumeFixed := false
  nodeVolume_L := 50
  nodeCp := cpWater * rhoWater * 50
  nodeHeight_m := 1 / 4
  fracAreaTop := 1 / 10
  fracAreaSide := 8 / 10
  UA := 10
  fittingsUA := 1
  inletHeight := 0
  inlet2Height := 1
  hasHeatExchanger := false
  heatExchangerEffectiveness := 9 / 10
  nodeHeatExchangerEffectiveness := 1 / 2
  outletT := 0

/-- The sample tank is really changed by mixing: its four nodes end at the common mean. -/
example : sampleTank.volume_L ≠ 0 ∧ sampleTank.doInversionMixing = true ∧
    sampleTank.mixInversions.nodeTs = ![55 / 2, 55 / 2, 55 / 2, 55 / 2] := by
  decide +kernel

end HPWH
