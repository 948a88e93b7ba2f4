import Verif.Lemmas.Step
import Mathlib.Tactic.LinearCombination

/-! Helper lemmas about extra heat. -/

namespace HPWH

open Spec Units

variable {n k : ℕ}

/-- Total of the entries below `i`. -/
def sumBelow (w : Nodes n ℚ) (i : ℕ) : ℚ := ∑ j : Fin (n + 1), if j.val < i then w j else 0

theorem sumBelow_succ (w : Nodes n ℚ) (i : ℕ) (h : i < n + 1) :
    sumBelow w (i + 1) = sumBelow w i + w ⟨i, h⟩ := by
  unfold sumBelow
  have : ∀ j : Fin (n + 1), (if j.val < i + 1 then w j else 0) =
      (if j.val < i then w j else 0) + if j = ⟨i, h⟩ then w j else 0 := by
    intro j
    by_cases h1 : j = ⟨i, h⟩
    · subst h1; simp
    · have : j.val ≠ i := fun e => h1 (Fin.ext e)
      by_cases h2 : j.val < i
      · simp [h1, h2, show j.val < i + 1 by omega]
      · simp [h1, h2, show ¬ j.val < i + 1 by omega]
  simp only [this, Finset.sum_add_distrib, Finset.sum_ite_eq', Finset.mem_univ, if_true]

theorem sumBelow_zero (w : Nodes n ℚ) : sumBelow w 0 = 0 := by simp [sumBelow]

theorem sumBelow_full (w : Nodes n ℚ) : sumBelow w (n + 1) = ∑ j, w j := by
  unfold sumBelow
  exact Finset.sum_congr rfl fun j _ => if_pos j.isLt

theorem extraLoop_spec (minutes : ℚ) (hmin : 0 ≤ minutes) (w : Nodes n ℚ) (hw : ∀ i, 0 ≤ w i) :
    ∀ (i : ℕ) (h : i ≤ n + 1) (tot : ℚ) (t : Tank n), 0 < t.nodeCp → Monotone t.nodeTs →
    (Sim.extraLoop minutes w i h tot t).1 = tot + BTUperKWH * (sumBelow w i / 1000) ∧
    (Sim.extraLoop minutes w i h tot t).2 =
      { t with nodeTs := (Sim.extraLoop minutes w i h tot t).2.nodeTs } ∧
    Monotone (Sim.extraLoop minutes w i h tot t).2.nodeTs ∧
    (∀ j, t.nodeTs j ≤ (Sim.extraLoop minutes w i h tot t).2.nodeTs j) ∧
    t.nodeCp * ∑ j, (Sim.extraLoop minutes w i h tot t).2.nodeTs j =
      t.nodeCp * ∑ j, t.nodeTs j + 3600 * (sumBelow w i / 1000 * (minutes / 60)) := by
  intro i
  induction i with
  | zero => intro h tot t _ hm; simp [Sim.extraLoop, sumBelow_zero, hm]
  | succ i ih =>
    intro h tot t hcp hm
    rw [Sim.extraLoop, sumBelow_succ w i h]
    by_cases h0 : w ⟨i, h⟩ = 0
    · have : ¬ (w ⟨i, h⟩ ≠ 0) := by simpa using h0
      rw [if_neg this, h0, add_zero]
      exact ih _ tot t hcp hm
    · rw [if_pos h0]
      simp only
      set q : ℚ := BTU_TO_KJ (KWH_TO_BTU (W_TO_KW (w ⟨i, h⟩)) * minutes / minPerHr) with hqd
      have hB : BTUperKWH ≠ 0 := by norm_num [BTUperKWH]
      have hq : q = 3600 * (w ⟨i, h⟩ / 1000 * (minutes / 60)) := by
        rw [hqd]
        unfold BTU_TO_KJ KWH_TO_BTU W_TO_KW secPerHr secPerMin minPerHr
        field_simp
        norm_num
      have hq0 : 0 ≤ q := by
        rw [hq]
        have := hw ⟨i, h⟩
        positivity
      obtain ⟨e1, e2⟩ := t.addExtraHeatAboveNode_spec q ⟨i, h⟩ hcp hm hq0
      have hcp' : (t.addExtraHeatAboveNode q ⟨i, h⟩).nodeCp = t.nodeCp := by rw [e1]
      obtain ⟨g1, g2, g3, g4, g5⟩ := ih (by omega) (tot + KWH_TO_BTU (W_TO_KW (w ⟨i, h⟩)))
        (t.addExtraHeatAboveNode q ⟨i, h⟩) (by rw [hcp']; exact hcp) e2.mono
      refine ⟨?_, ?_, g3, fun j => (e2.warmer j).trans (g4 j), ?_⟩
      · rw [g1]; unfold KWH_TO_BTU W_TO_KW; ring
      · rw [g2]; rfl
      · rw [hcp'] at g5
        rw [g5, e2.energy, hq]
        ring

theorem calcThermalDist_shr {exp : ℚ → ℚ} {shr : ℚ} {low : Fin (n + 1)} {T : Nodes n ℚ} {sp : ℚ}
    {r : Nodes n ℚ} (h : calcThermalDist exp shr low T sp = .ok r) : shr ≠ 0 := by
  rintro rfl
  unfold calcThermalDist at h
  rw [if_pos rfl] at h
  cases h

theorem modifyHeatDistribution_spec (m : Libm) (hexp : ∀ x, 0 ≤ m.exp x) (hn : n + 1 ≤ 10000)
    (T : Nodes n ℚ) (sp : ℚ) (w r : List ℚ) (hne : w ≠ []) (hw : ∀ x ∈ w, 0 ≤ x)
    (h : Sim.modifyHeatDistribution m T sp w = .ok r) :
    r ≠ [] ∧ (∀ x ∈ r, 0 ≤ x) ∧ r.sum = w.sum := by
  unfold Sim.modifyHeatDistribution at h
  simp only at h
  split_ifs at h with h0
  · rw [← Except.ok.inj h]; exact ⟨hne, hw, rfl⟩
  · rw [bind_ok_iff] at h
    obtain ⟨wd, -, h⟩ := h
    split_ifs at h with hl
    · rw [bind_ok_iff] at h
      obtain ⟨d, hd, h⟩ := h
      rw [← Except.ok.inj h]
      obtain ⟨r', e, h1, h2, -⟩ := calcThermalDist_spec m.exp hexp _ (calcThermalDist_shr hd) _ T sp hn
      rw [hd] at e
      obtain rfl := Except.ok.inj e
      have hs : 0 ≤ w.sum := List.sum_nonneg hw
      refine ⟨?_, ?_, ?_⟩
      · simp
      · intro x hx
        rw [List.mem_map] at hx
        obtain ⟨y, hy, rfl⟩ := hx
        rw [List.mem_ofFn] at hy
        obtain ⟨i, rfl⟩ := hy
        exact mul_nonneg (h1 i) hs
      · rw [List.sum_map_mul_right, List.map_id', List.sum_ofFn, h2, one_mul]

theorem resampleExtensive_nonneg {m n : ℕ} (values r : Fin m → ℚ) (v : Fin n → ℚ) (hn : 0 < n)
    (hv : ∀ i, 0 ≤ v i) (h : resampleExtensive values v = .ok r) (i : Fin m) : 0 ≤ r i := by
  rw [C20_resampleExtensive_entries values r v hn h i]
  unfold profileIntegral
  refine mul_nonneg (by positivity) (Finset.sum_nonneg fun j _ => ?_)
  exact mul_nonneg (hv j) (overlap_nonneg _ _ _ _)

/-- What adding extra heat leaves behind. -/
theorem addExtraHeat_spec (m : Libm) (hexp : ∀ x, 0 ≤ m.exp x) (hn : n + 1 ≤ 10000)
    (s s' : Sim n k) (w : List ℚ) (hne : w ≠ []) (hw : ∀ x ∈ w, 0 ≤ x) (hcp : 0 < s.tank.nodeCp)
    (hm : Monotone s.tank.nodeTs) (hmin : 0 ≤ s.cfg.minutesPerStep)
    (h : s.addExtraHeat m w = .ok s') :
    s' = { s with tank := { s.tank with nodeTs := s'.tank.nodeTs },
                  extraEnergyInput_kWh := s'.extraEnergyInput_kWh } ∧
    s'.extraEnergyInput_kWh = w.sum / 1000 * (s.cfg.minutesPerStep / 60) ∧
    Monotone s'.tank.nodeTs ∧ (∀ j, s.tank.nodeTs j ≤ s'.tank.nodeTs j) ∧
    s.tank.nodeCp * ∑ j, s'.tank.nodeTs j =
      s.tank.nodeCp * ∑ j, s.tank.nodeTs j + 3600 * s'.extraEnergyInput_kWh := by
  unfold Sim.addExtraHeat at h
  rw [bind_ok_iff] at h
  obtain ⟨md, hmd, h⟩ := h
  rw [bind_ok_iff] at h
  obtain ⟨nodes, hnodes, h⟩ := h
  obtain ⟨r1, r2, r3⟩ := modifyHeatDistribution_spec m hexp hn _ _ w md hne hw hmd
  have hlen : 0 < md.length := List.length_pos_iff.mpr r1
  obtain ⟨r, hr, hsum⟩ := C20_resampleExtensive_total (m := n + 1) (fun _ => 0)
    (fun i : Fin md.length => md.get i) hlen (by omega)
  have hnn := resampleExtensive_nonneg _ nodes _ hlen (fun i => r2 _ (List.get_mem _ _)) hnodes
  rw [hnodes] at hr
  obtain rfl := Except.ok.inj hr
  have hmds : ∑ i : Fin md.length, md.get i = md.sum := by
    rw [← List.sum_ofFn]
    congr 1
    exact List.ofFn_get md
  obtain ⟨g1, g2, g3, g4, g5⟩ := extraLoop_spec s.cfg.minutesPerStep hmin nodes hnn (n + 1) le_rfl 0
    s.tank hcp hm
  rw [sumBelow_full, hsum, hmds, r3] at g1 g5
  simp only at h
  have hB : BTUperKWH ≠ 0 := by norm_num [BTUperKWH]
  have hE : BTU_TO_KWH ((Sim.extraLoop s.cfg.minutesPerStep nodes (n + 1) le_rfl 0 s.tank).1 *
      s.cfg.minutesPerStep / minPerHr) = w.sum / 1000 * (s.cfg.minutesPerStep / 60) := by
    rw [g1]
    unfold BTU_TO_KWH minPerHr
    field_simp
    ring
  have h := Except.ok.inj h
  rw [← h]
  refine ⟨?_, hE, g3, g4, ?_⟩
  · rw [← g2]
  · dsimp only
    rw [hE]
    exact g5

end HPWH
