import Verif.Model.Averages
import Verif.Spec.Averages
import Verif.Props.Profile
import Verif.Props.Ports
import Verif.Props.Step

/-! # C98: averages of the tank by a list of weights -/

namespace HPWH

open Spec

variable {n k : ℕ}

theorem layerMean_eq (T : Fin (n + 1) → ℚ) (m j : ℕ) (hm : 0 < m) :
    layerMean T m j = cellAverage T m j := by
  have hmQ : (0 : ℚ) < m := by exact_mod_cast hm
  unfold layerMean cellAverage profileAverage profileIntegral overlap
  have : ((j : ℚ) + 1) / m - (j : ℚ) / m = 1 / m := by ring
  rw [this, div_div_eq_mul_div, div_one, mul_comm]
  push_cast
  rfl

theorem averageByWeights_eq (t : Tank n) (w : List ℚ) :
    t.averageByWeights w = .ok (∑ j : Fin w.length, w.get j * cellAverage t.nodeTs w.length j) := by
  unfold Tank.averageByWeights
  rw [resample_spec _ _ (Nat.succ_pos n)]
  rfl

/-- **C98.** The average by a list of weights always succeeds, for any number of weights: the tank is cut into as many
layers of equal height, and each weight multiplies the mean temperature of its layer, the first weight the lowest. -/
theorem C98_weights (s : Sim n k) (w : List ℚ) :
    s.getAverageTankTempByWeights w =
      .ok (∑ j : Fin w.length, w.get j * layerMean s.tank.nodeTs w.length j) := by
  unfold Sim.getAverageTankTempByWeights
  rw [averageByWeights_eq]
  congr 1
  refine Finset.sum_congr rfl fun j _ => ?_
  rw [layerMean_eq _ _ _ (by have := j.isLt; omega)]

/-- **C98.** Weights that are not negative and total one give a value between the coldest and the hottest node. -/
theorem C98_weights_range (s : Sim n k) (w : List ℚ) (x lo hi : ℚ)
    (h : s.getAverageTankTempByWeights w = .ok x) (h0 : ∀ y ∈ w, 0 ≤ y) (h1 : w.sum = 1)
    (hT : Within s.tank.nodeTs lo hi) : lo ≤ x ∧ x ≤ hi := by
  rw [Sim.getAverageTankTempByWeights, averageByWeights_eq] at h
  cases h
  have hs : ∑ j : Fin w.length, w.get j = 1 := by
    rw [← h1, ← Fin.sum_univ_getElem]; rfl
  have hb := fun j : Fin w.length => cellAverage_bounds s.tank.nodeTs (Nat.succ_pos n) j hT
  have hw := fun j : Fin w.length => h0 _ (List.get_mem w j)
  constructor
  · calc lo = ∑ j : Fin w.length, w.get j * lo := by rw [← Finset.sum_mul, hs, one_mul]
      _ ≤ _ := Finset.sum_le_sum fun j _ => mul_le_mul_of_nonneg_left (hb j).1 (hw j)
  · calc _ ≤ ∑ j : Fin w.length, w.get j * hi :=
        Finset.sum_le_sum fun j _ => mul_le_mul_of_nonneg_left (hb j).2 (hw j)
      _ = hi := by rw [← Finset.sum_mul, hs, one_mul]

/-- **C98.** Equal weights that total one give the plain average, whatever their number. -/
theorem C98_equal_weights (s : Sim n k) (m : ℕ) (hm : 0 < m) :
    s.getAverageTankTempByWeights (List.replicate m (1 / (m : ℚ))) = .ok s.getAverageTankTemp := by
  have hmQ : (0 : ℚ) < m := by exact_mod_cast hm
  rw [Sim.getAverageTankTempByWeights, averageByWeights_eq, Sim.getAverageTankTemp, Tank.averageNodeT,
    Tank.numNodes]
  congr 1
  have hl : (List.replicate m (1 / (m : ℚ))).length = m := List.length_replicate ..
  have hw : ∀ j : Fin (List.replicate m (1 / (m : ℚ))).length,
      (List.replicate m (1 / (m : ℚ))).get j = 1 / (m : ℚ) := fun j => by simp
  simp only [hw]
  rw [← Finset.mul_sum, sum_cellAverage _ (Nat.succ_pos n) (by omega), hl]
  push_cast
  field_simp

/-- **C98.** The weights are not brought to a total of one: a tank at one temperature reads that temperature times the
total, so it reads its own temperature only if the total is one (or the temperature zero). -/
theorem C98_not_normalized (s : Sim n k) (w : List ℚ) (T : ℚ) (hT : ∀ i, s.tank.nodeTs i = T) :
    s.getAverageTankTempByWeights w = .ok (w.sum * T) ∧
    (s.getAverageTankTempByWeights w = .ok T ↔ w.sum = 1 ∨ T = 0) := by
  have key : s.getAverageTankTempByWeights w = .ok (w.sum * T) := by
    rw [Sim.getAverageTankTempByWeights, averageByWeights_eq]
    congr 1
    have hc : ∀ j : Fin w.length, cellAverage s.tank.nodeTs w.length j = T := fun j => by
      have := cellAverage_bounds s.tank.nodeTs (Nat.succ_pos n) j (lo := T) (hi := T)
        fun i => by rw [hT i]; exact ⟨le_rfl, le_rfl⟩
      exact le_antisymm this.2 this.1
    simp only [hc]
    rw [← Finset.sum_mul, ← Fin.sum_univ_getElem]
    rfl
  refine ⟨key, ?_⟩
  rw [key, Except.ok.injEq]
  constructor
  · intro h
    by_cases h0 : T = 0
    · exact .inr h0
    · exact .inl (mul_right_cancel₀ h0 (by linarith))
  · rintro (h | h)
    · rw [h, one_mul]
    · rw [h, mul_zero]

/-- **C98.** A warmer tank reads no lower, when no weight is negative. -/
theorem C98_weights_mono (s s' : Sim n k) (w : List ℚ) (x x' : ℚ)
    (h : s.getAverageTankTempByWeights w = .ok x) (h' : s'.getAverageTankTempByWeights w = .ok x')
    (h0 : ∀ y ∈ w, 0 ≤ y) (hT : ∀ i, s.tank.nodeTs i ≤ s'.tank.nodeTs i) : x ≤ x' := by
  rw [C98_weights] at h h'
  cases h
  cases h'
  refine Finset.sum_le_sum fun j _ => mul_le_mul_of_nonneg_left ?_ (h0 _ (List.get_mem w j))
  unfold layerMean
  refine mul_le_mul_of_nonneg_left (Finset.sum_le_sum fun i _ => ?_) (Nat.cast_nonneg _)
  exact mul_le_mul_of_nonneg_right (hT i) (le_max_left _ _)

theorem sum_ofFn {m : ℕ} (f : Fin m → ℚ) (g : ℕ → ℕ → ℚ) :
    ∑ j : Fin (List.ofFn f).length, (List.ofFn f).get j * g (List.ofFn f).length j =
      ∑ i : Fin m, f i * g m i := by
  refine Fintype.sum_equiv (finCongr (List.length_ofFn)) _ _ fun j => ?_
  simp only [List.get_ofFn, List.length_ofFn, finCongr_apply]
  rfl

/-- **C98.** The weight list with a single one in it reads the simulated thermocouple of that layer. -/
theorem C98_thermocouple (s : Sim n k) (m : ℕ) (j : Fin m) :
    s.getAverageTankTempByWeights (List.ofFn fun i => if i = j then 1 else 0) =
      s.tank.nthSimTcouple ((j : ℕ) + 1 : ℤ) m := by
  have hj := j.isLt
  rw [C98_weights, C21_thermocouple_value s.tank _ _ (by omega) (by omega),
    sum_ofFn _ (fun m j => layerMean s.tank.nodeTs m j)]
  congr 1
  simp only [ite_mul, one_mul, zero_mul, Finset.sum_ite_eq', Finset.mem_univ, if_true]
  rw [layerMean_eq _ _ _ (by omega)]
  simp [cellAverage]

theorem layersFrom_pts (M : ℚ) (i : ℕ) (w : List ℚ) (a b : ℚ) :
    densityIntegral ((i : ℚ) / M) (WDist.pts M (layersFrom i w)) a b =
      ∑ j : Fin w.length, w.get j * overlap (((i + j : ℕ) : ℚ) / M) (((i + j : ℕ) + 1 : ℚ) / M) a b := by
  induction w generalizing i with
  | nil => rfl
  | cons x xs ih =>
    have e := ih (i + 1)
    push_cast at e
    simp only [layersFrom, WDist.pts, List.map_cons, densityIntegral]
    simp only [WDist.pts] at e
    rw [e]
    refine Eq.trans ?_ (Fin.sum_univ_succ (n := xs.length) _).symm
    simp only [List.get_eq_getElem, Fin.val_succ, List.getElem_cons_succ, Fin.val_zero, List.getElem_cons_zero,
      Nat.add_zero]
    congr 1
    refine Finset.sum_congr rfl fun j _ => ?_
    push_cast
    rw [show (i : ℚ) + 1 + j = i + (j + 1) by ring]

theorem layersFrom_valid (i : ℕ) (w : List ℚ) : WDist.isValidLoop i (layersFrom i w) = true := by
  induction w generalizing i with
  | nil => rfl
  | cons x xs ih =>
    have e := ih (i + 1)
    push_cast at e
    simp [layersFrom, WDist.isValidLoop, e]

theorem layersFrom_last (i : ℕ) (w : List ℚ) (h : layersFrom i w ≠ []) :
    (layersFrom i w).maximumHeight h = i + w.length := by
  induction w generalizing i with
  | nil => exact absurd rfl h
  | cons x xs ih =>
    cases xs with
    | nil => simp [layersFrom, WDist.maximumHeight]
    | cons y ys =>
      have e := ih (i + 1) (by simp [layersFrom])
      simp only [WDist.maximumHeight, layersFrom, List.length_cons] at e ⊢
      rw [List.getLast_cons (by simp), e]
      push_cast
      ring

theorem layersFrom_mem (i : ℕ) (w : List ℚ) : (∀ p ∈ layersFrom i w, p.weight ∈ w) ∧
    ∀ y ∈ w, ∃ p ∈ layersFrom i w, p.weight = y := by
  induction w generalizing i with
  | nil => exact ⟨fun p h => (by cases h), fun y h => (by cases h)⟩
  | cons x xs ih =>
    obtain ⟨h1, h2⟩ := ih (i + 1)
    constructor
    · intro p hp
      rcases List.mem_cons.mp hp with rfl | hp
      · exact List.mem_cons_self
      · exact List.mem_cons_of_mem _ (h1 p hp)
    · intro y hy
      rcases List.mem_cons.mp hy with rfl | hy
      · exact ⟨_, List.mem_cons_self, rfl⟩
      · obtain ⟨p, hp, e⟩ := h2 y hy
        exact ⟨p, List.mem_cons_of_mem _ hp, e⟩

/-- **C98.** The two ways to weigh the tank agree: with weights that are not negative and not all zero, the weighted
distribution over layers of equal height reads the same as the list of weights divided by their total. -/
theorem C98_distribution (s : Sim n k) (w : List ℚ) (h0 : ∀ y ∈ w, 0 ≤ y) (h1 : 0 < w.sum) :
    s.getAverageTankTempByDist (.weighted (equalLayers w)) =
      s.getAverageTankTempByWeights (w.map (· / w.sum)) := by
  have hne : w ≠ [] := by rintro rfl; simp at h1
  have hlne : equalLayers w ≠ [] := by
    cases w with
    | nil => exact absurd rfl hne
    | cons x xs => simp [equalLayers, layersFrom]
  have hlen : 0 < w.length := List.length_pos_of_ne_nil hne
  have hlenQ : (0 : ℚ) < w.length := by exact_mod_cast hlen
  have hpos : ∃ y ∈ w, 0 < y := by
    by_contra hc
    push Not at hc
    have : w.sum ≤ 0 := by
      have := List.sum_le_card_nsmul w 0 hc
      simpa using this
    linarith
  have hproper : (equalLayers w).Proper := by
    refine ⟨WDist.isValid_iff.mpr ⟨hlne, ?_, by simpa [equalLayers] using layersFrom_valid 0 w⟩, fun p hp =>
      h0 _ ((layersFrom_mem 0 w).1 p hp)⟩
    obtain ⟨y, hy, hy0⟩ := hpos
    obtain ⟨p, hp, e⟩ := (layersFrom_mem 0 w).2 y hy
    exact ⟨p, hp, by rw [e]; exact hy0⟩
  have hrel : ∀ a b, densityIntegral 0 (equalLayers w).rel a b =
      ∑ j : Fin w.length, w.get j * overlap ((j : ℚ) / w.length) (((j : ℚ) + 1) / w.length) a b := by
    intro a b
    rw [WDist.rel_eq hlne]
    have hM : (equalLayers w).maximumHeight hlne = w.length := by
      have := layersFrom_last 0 w hlne
      simpa [equalLayers] using this
    rw [hM]
    have := layersFrom_pts (w.length : ℚ) 0 w a b
    simpa [equalLayers] using this
  show (equalLayers w).averageT s.tank.nodeTs = _
  have hnum := WDist.averageT_eq (N := n + 1) (Nat.succ_pos n) hproper s.tank.nodeTs
  rw [hnum, C98_weights]
  congr 1
  simp only [hrel]
  have hden : ∑ j : Fin w.length, w.get j * overlap ((j : ℚ) / w.length) (((j : ℚ) + 1) / w.length) 0 1 =
      w.sum / w.length := by
    have : ∀ j : Fin w.length, overlap ((j : ℚ) / w.length) (((j : ℚ) + 1) / w.length) 0 1 = 1 / w.length := by
      intro j
      have hj : ((j : ℚ) + 1) ≤ w.length := by exact_mod_cast j.isLt
      rw [overlap_contains (by positivity) (by rw [div_le_one hlenQ]; exact hj) (cell_le _ _)]
      ring
    simp only [this]
    rw [← Finset.sum_mul, mul_one_div, ← Fin.sum_univ_getElem w]
    rfl
  rw [hden]
  have hmap : ∑ j : Fin (w.map (· / w.sum)).length, (w.map (· / w.sum)).get j *
      layerMean s.tank.nodeTs (w.map (· / w.sum)).length j =
      ∑ j : Fin w.length, w.get j / w.sum * layerMean s.tank.nodeTs w.length j := by
    refine Fintype.sum_equiv (finCongr (List.length_map ..)) _ _ fun j => ?_
    simp only [List.get_eq_getElem, List.getElem_map, List.length_map, finCongr_apply, Fin.val_cast]
  rw [hmap]
  have hlm : ∀ j : Fin w.length, layerMean s.tank.nodeTs w.length j = w.length * ∑ i : Fin (n + 1),
      s.tank.nodeTs i * overlap ((j : ℚ) / w.length) (((j : ℚ) + 1) / w.length)
        ((i : ℚ) / ((n + 1 : ℕ) : ℚ)) (((i : ℚ) + 1) / ((n + 1 : ℕ) : ℚ)) := by
    intro j
    unfold layerMean overlap
    push_cast
    congr 1
    refine Finset.sum_congr rfl fun i _ => ?_
    rw [min_comm, max_comm ((i : ℚ) / _)]
  simp only [hlm, Finset.sum_mul, Finset.mul_sum, Finset.sum_div]
  rw [Finset.sum_comm]
  refine Finset.sum_congr rfl fun j _ => Finset.sum_congr rfl fun i _ => ?_
  have := h1.ne'
  field_simp

/-- **C98.** The inlet nodes can be read back: a port set at a fraction of the height reads the node at that height, the
other port and the temperatures are as before, and any number other than 1 and 2 is refused. -/
theorem C98_inlets (s s' : Sim n k) (f : ℚ) :
    (s.setInletByFraction f = .ok s' → s'.getInletHeight 2 = s.getInletHeight 2 ∧
      ∃ j, s'.getInletHeight 1 = .ok j ∧ NodeAt (n + 1) f j) ∧
    (s.setInlet2ByFraction f = .ok s' → s'.getInletHeight 1 = s.getInletHeight 1 ∧
      ∃ j, s'.getInletHeight 2 = .ok j ∧ NodeAt (n + 1) f j) ∧
    ∀ i, (∃ j, s.getInletHeight i = .ok j) ↔ i = 1 ∨ i = 2 := by
  refine ⟨fun h => ?_, fun h => ?_, fun i => ?_⟩
  · obtain ⟨j, hj, rfl⟩ := (C40_inlets s s' f).1.mp h
    exact ⟨rfl, j, rfl, hj.2.2⟩
  · obtain ⟨j, hj, rfl⟩ := (C40_inlets s s' f).2.mp h
    exact ⟨rfl, j, rfl, hj.2.2⟩
  · unfold Sim.getInletHeight Tank.getInletHeight
    by_cases h1 : i = 1
    · simp [h1]
    · by_cases h2 : i = 2
      · simp [h2]
      · simp [h1, h2]

/-! Concrete cases: the sample tank has nodes at 20, 30, 40 and 50 °C. -/

example : sampleSim.getAverageTankTempByWeights [1/2, 0, 1/2] = .ok 35 ∧
    sampleSim.getAverageTankTempByWeights [1/4, 3/4] = .ok 40 ∧
    sampleSim.getAverageTankTempByWeights [0, 0, 1] = .ok (95/2) := by decide +kernel

example : (∀ y ∈ ([1/4, 3/4] : List ℚ), 0 ≤ y) ∧ ([1/4, 3/4] : List ℚ).sum = 1 ∧
    Within sampleSim.tank.nodeTs 20 50 := by
  refine ⟨by decide +kernel, by decide +kernel, ?_⟩
  intro i
  revert i
  decide +kernel

/-- Weights that total two read twice the temperature. -/
example : sampleSim.getAverageTankTempByWeights [1, 1] = .ok 70 := by decide +kernel

example : sampleSim.getAverageTankTempByDist (.weighted (equalLayers [1, 3])) = .ok 40 ∧
    equalLayers [1, 3] = [⟨1, 1⟩, ⟨2, 3⟩] := by decide +kernel

example : ∃ s', sampleSim.setInlet2ByFraction (3/5) = .ok s' ∧ s'.getInletHeight 2 = .ok 2 ∧
    s'.getInletHeight 3 = .error .error := by decide +kernel

end HPWH
