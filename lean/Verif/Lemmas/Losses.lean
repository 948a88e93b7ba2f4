import Verif.Lemmas.DrawLoop
import Mathlib.Algebra.BigOperators.Field

/-! Helper lemmas about standby losses and conduction. -/

namespace HPWH
namespace Tank

variable {n : ℕ}

theorem afterLosses_apply (t : Tank n) (hours amb : ℚ) (k : Fin (n + 1)) :
    t.afterLosses hours amb k = t.nodeTs k -
      ((if k = 0 then t.endLossRate else 0) + (if k = Fin.last n then t.endLossRate else 0) +
        t.sideLossRate) * hours / t.nodeCp * (t.nodeTs k - amb) := by
  unfold afterLosses lossBottom lossTop lossSide
  simp only [Function.update_apply]
  by_cases h0 : k = 0
  · subst h0
    by_cases hl : (0 : Fin (n + 1)) = Fin.last n
    · simp only [← hl, if_true]
      ring
    · simp [hl]
      ring
  · by_cases hl : k = Fin.last n
    · subst hl
      simp [h0]
      ring
    · simp [h0, hl]
      ring

theorem afterLosses_sum (t : Tank n) (hours amb : ℚ) (hc : t.nodeCp ≠ 0) :
    t.nodeCp * ∑ k, t.afterLosses hours amb k =
      t.nodeCp * ∑ k, t.nodeTs k - t.stepLosses hours amb := by
  unfold afterLosses stepLosses
  rw [Finset.sum_sub_distrib, sum_update, sum_update, ← Finset.sum_div]
  field_simp
  ring

/-- Conduction flux into node `k` from below (0 at the two ends). -/
def flux (tau : ℚ) (T : Nodes n ℚ) (k : ℕ) : ℚ :=
  if 0 < k ∧ k ≤ n then tau * (ext T k - ext T (k - 1)) else 0

theorem conductNode_eq_flux (tau : ℚ) (T : Nodes n ℚ) (k : Fin (n + 1)) :
    conductNode tau T k = flux tau T (k.val + 1) - flux tau T k.val := by
  have hk := k.isLt
  have ek := ext_val T k
  unfold conductNode flux
  by_cases hn : n = 0
  · have : k.val = 0 := by omega
    simp [hn, this]
  by_cases hz : k.val = 0
  · have hk1 : k.val + 1 ≤ n := by omega
    have e1 : ext T (k.val + 1) = T ⟨1, by omega⟩ := by
      rw [ext_of_lt T (show k.val + 1 < n + 1 by omega)]
      congr 1
      simp [hz]
    rw [dif_neg hn, dif_pos hz, if_pos ⟨by omega, hk1⟩, if_neg (by omega), Nat.add_sub_cancel,
      ek, e1]
    ring
  by_cases hl : k.val = n
  · have e1 : ext T (k.val - 1) = T ⟨n - 1, by omega⟩ := by
      rw [ext_of_lt T (show k.val - 1 < n + 1 by omega)]
      congr 1
      simp [hl]
    rw [dif_neg hn, dif_neg hz, dif_pos hl, if_neg (by omega), if_pos (by omega), ek, e1]
    ring
  · rw [dif_neg hn, dif_neg hz, dif_neg hl, if_pos (by omega), if_pos (by omega),
      Nat.add_sub_cancel, ek, ext_of_lt T (show k.val + 1 < n + 1 by omega),
      ext_of_lt T (show k.val - 1 < n + 1 by omega)]
    ring

theorem conductNode_sum (tau : ℚ) (T : Nodes n ℚ) : ∑ k, conductNode tau T k = 0 := by
  simp only [conductNode_eq_flux]
  rw [Fin.sum_univ_eq_sum_range (fun k => flux tau T (k + 1) - flux tau T k), Finset.sum_range_sub]
  simp [flux]

/-- Stratified profiles: conduction keeps every node between its neighbours for `tau ≤ 1`. -/
theorem conductNode_bounds_mono (tau lo hi : ℚ) (h0 : 0 ≤ tau) (h1 : tau ≤ 1) (T : Nodes n ℚ)
    (hm : Monotone T) (hb : ∀ k, lo ≤ T k ∧ T k ≤ hi) (k : Fin (n + 1)) :
    lo ≤ T k + conductNode tau T k ∧ T k + conductNode tau T k ≤ hi := by
  have hk := k.isLt
  unfold conductNode
  split_ifs with hn hz hl
  · simpa using hb k
  · have a : T k ≤ T ⟨1, by omega⟩ := hm (by rw [Fin.le_def]; simp [hz])
    have b := hb k
    have c := hb ⟨1, by omega⟩
    constructor <;> nlinarith
  · have a : T ⟨n - 1, by omega⟩ ≤ T k := hm (by rw [Fin.le_def]; simp; omega)
    have b := hb k
    have c := hb ⟨n - 1, by omega⟩
    constructor <;> nlinarith
  · have a : T k ≤ T ⟨k.val + 1, by omega⟩ := hm (by rw [Fin.le_def]; simp)
    have a' : T ⟨k.val - 1, by omega⟩ ≤ T k := hm (by rw [Fin.le_def]; simp)
    have b := hb k
    have c := hb ⟨k.val + 1, by omega⟩
    have d := hb ⟨k.val - 1, by omega⟩
    constructor <;> nlinarith

/-- Any profile: losses and conduction together keep nodes in the range of the tank and
the surroundings when the explicit step is small enough. -/
theorem lossConduct_bounds (tau lo hi : ℚ) (h0 : 0 ≤ tau) (T : Nodes n ℚ) (amb c : ℚ)
    (hc0 : 0 ≤ c) (h1 : 2 * tau + c ≤ 1) (hb : ∀ k, lo ≤ T k ∧ T k ≤ hi)
    (ha : lo ≤ amb ∧ amb ≤ hi) (k : Fin (n + 1)) :
    lo ≤ T k - c * (T k - amb) + conductNode tau T k ∧
      T k - c * (T k - amb) + conductNode tau T k ≤ hi := by
  have hk := k.isLt
  have b := hb k
  unfold conductNode
  split_ifs with hn hz hl
  · constructor <;> nlinarith
  · have d := hb ⟨1, by omega⟩
    constructor
    · nlinarith [mul_nonneg h0 (sub_nonneg.mpr d.1), mul_nonneg hc0 (sub_nonneg.mpr ha.1),
        mul_nonneg (show 0 ≤ 1 - tau - c by linarith) (sub_nonneg.mpr b.1)]
    · nlinarith [mul_nonneg h0 (sub_nonneg.mpr d.2), mul_nonneg hc0 (sub_nonneg.mpr ha.2),
        mul_nonneg (show 0 ≤ 1 - tau - c by linarith) (sub_nonneg.mpr b.2)]
  · have d := hb ⟨n - 1, by omega⟩
    constructor
    · nlinarith [mul_nonneg h0 (sub_nonneg.mpr d.1), mul_nonneg hc0 (sub_nonneg.mpr ha.1),
        mul_nonneg (show 0 ≤ 1 - tau - c by linarith) (sub_nonneg.mpr b.1)]
    · nlinarith [mul_nonneg h0 (sub_nonneg.mpr d.2), mul_nonneg hc0 (sub_nonneg.mpr ha.2),
        mul_nonneg (show 0 ≤ 1 - tau - c by linarith) (sub_nonneg.mpr b.2)]
  · have d := hb ⟨k.val + 1, by omega⟩
    have e := hb ⟨k.val - 1, by omega⟩
    constructor
    · nlinarith [mul_nonneg h0 (sub_nonneg.mpr d.1), mul_nonneg h0 (sub_nonneg.mpr e.1),
        mul_nonneg hc0 (sub_nonneg.mpr ha.1),
        mul_nonneg (show 0 ≤ 1 - 2 * tau - c by linarith) (sub_nonneg.mpr b.1)]
    · nlinarith [mul_nonneg h0 (sub_nonneg.mpr d.2), mul_nonneg h0 (sub_nonneg.mpr e.2),
        mul_nonneg hc0 (sub_nonneg.mpr ha.2),
        mul_nonneg (show 0 ≤ 1 - 2 * tau - c by linarith) (sub_nonneg.mpr b.2)]

theorem nextNodes_sum (t : Tank n) (hours seconds amb : ℚ) (hc : t.nodeCp ≠ 0) :
    t.nodeCp * ∑ k, t.nextNodes hours seconds amb k =
      t.nodeCp * ∑ k, t.nodeTs k - t.stepLosses hours amb := by
  unfold nextNodes
  rw [Finset.sum_add_distrib, mul_add, afterLosses_sum t hours amb hc]
  by_cases hd : t.doConduction = true
  · simp [hd, conductNode_sum]
  · simp [hd]

theorem processLosses_ok (t t' : Tank n) (hv : t.volume_L ≠ 0) (hours seconds amb : ℚ)
    (h : t.processLosses hours seconds amb = .ok t') :
    t'.toTankCfg = t.toTankCfg ∧ t'.outletT = t.outletT ∧
    t'.standbyLosses_kJ = t.standbyLosses_kJ + t.stepLosses hours amb ∧
    ∑ k, t'.nodeTs k = ∑ k, t.nextNodes hours seconds amb k ∧
    (∀ lo hi, (∀ k, lo ≤ t.nextNodes hours seconds amb k ∧
      t.nextNodes hours seconds amb k ≤ hi) → ∀ k, lo ≤ t'.nodeTs k ∧ t'.nodeTs k ≤ hi) ∧
    ¬ (t.doConduction = true ∧ t.tau seconds > 1) := by
  unfold processLosses at h
  split at h
  · cases h
  · rename_i hn
    injection h with h
    subst h
    refine ⟨by rw [mixInversions_eq], by rw [mixInversions_eq], by rw [mixInversions_eq], ?_, ?_, hn⟩
    · exact mixInversions_sum _ (by exact hv)
    · intro lo hi hb
      exact mixInversions_bounds _ (by exact hv) lo hi hb

theorem tau_nonneg (t : Tank n) (seconds : ℚ) (h : 0 ≤ seconds) : 0 ≤ t.tau seconds := by
  unfold tau kWater cpWater rhoWater
  have : 0 ≤ t.nodeHeight_m * t.nodeHeight_m := mul_self_nonneg _
  positivity

end Tank
end HPWH
