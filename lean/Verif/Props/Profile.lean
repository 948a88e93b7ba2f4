import Verif.Props.AddHeat
import Verif.Lemmas.WDist

/-! # C19–C25: resampling, thermocouples, weighted averages, heat distributions -/

namespace HPWH

open Spec

variable {m n N : ℕ}

/-! ## C19 -/

/-- **C19.** Resampling a profile of any positive length onto any number of nodes succeeds (stays in
range, terminates) and gives node `k` of `m` the average of the piecewise-constant source profile over
the height range `[k/m, (k+1)/m]`. -/
theorem C19_resample_exact (values : Fin m → ℚ) (v : Fin n → ℚ) (hn : 0 < n) :
    resample values v =
      .ok (fun k => profileAverage v ((k : ℚ) / m) (((k : ℚ) + 1) / m)) :=
  resample_spec values v hn

/-- **C19.** The overall average is preserved and no value leaves the source range. -/
theorem C19_resample_mean_and_range (values r : Fin m → ℚ) (v : Fin n → ℚ) (hn : 0 < n) (hm : 0 < m)
    (h : resample values v = .ok r) :
    (∑ k, r k) / m = (∑ i, v i) / n ∧
    ∀ lo hi, (∀ i, lo ≤ v i ∧ v i ≤ hi) → ∀ k, lo ≤ r k ∧ r k ≤ hi := by
  rw [resample_spec values v hn] at h
  cases h
  have hmQ : (0 : ℚ) < m := by exact_mod_cast hm
  refine ⟨?_, fun lo hi hb k => cellAverage_bounds v hn k hb⟩
  rw [sum_cellAverage v hn hm]
  field_simp

example : ∃ r, resample (m := 4) (fun _ => 0) (![10, 20, 60] : Fin 3 → ℚ) = .ok r ∧
    r = ![10, 50 / 3, 100 / 3, 60] := by
  decide +kernel

example : ∃ r, resample (m := 7) (fun _ => 0) (![10, 20, 60] : Fin 3 → ℚ) = .ok r ∧
    r = ![10, 10, 50 / 3, 20, 100 / 3, 60, 60] := by
  decide +kernel

/-! ## C20 -/

/-- **C20.** Extensive resampling preserves the sum. -/
theorem C20_resampleExtensive_total (values : Fin m → ℚ) (v : Fin n → ℚ) (hn : 0 < n) (hm : 0 < m) :
    ∃ r, resampleExtensive values v = .ok r ∧ ∑ k, r k = ∑ i, v i := by
  have hmQ : (0 : ℚ) < m := by exact_mod_cast hm
  have hnQ : (0 : ℚ) < n := by exact_mod_cast hn
  unfold resampleExtensive
  rw [resample_spec values v hn]
  refine ⟨_, rfl, ?_⟩
  rw [← Finset.sum_mul, sum_cellAverage v hn hm]
  field_simp

/-- **C20.** Each entry is the share of the source integral over its height range. -/
theorem C20_resampleExtensive_entries (values r : Fin m → ℚ) (v : Fin n → ℚ) (hn : 0 < n)
    (h : resampleExtensive values v = .ok r) (k : Fin m) :
    r k = n * profileIntegral v ((k : ℚ) / m) (((k : ℚ) + 1) / m) := by
  have hm : (0 : ℚ) < m := by
    have := k.isLt
    exact_mod_cast (by omega : 0 < m)
  unfold resampleExtensive at h
  rw [resample_spec values v hn] at h
  cases h
  unfold cellAverage profileAverage
  field_simp
  ring

example : ∃ r, resampleExtensive (m := 2) (fun _ => 0) (![10, 20, 60] : Fin 3 → ℚ) = .ok r ∧
    r = ![20, 70] := by
  decide +kernel

/-! ## C21 -/

/-- **C21.** The `k`-th of `m` simulated thermocouples reads the average of the tank over the `k`-th
`m`-th of its height. -/
theorem C21_thermocouple_value (t : Tank n) (k m : ℤ) (h1 : 1 ≤ k) (h2 : k ≤ m) :
    t.nthSimTcouple k m = .ok (profileAverage t.nodeTs (((k : ℚ) - 1) / m) ((k : ℚ) / m)) := by
  have hm : (0 : ℚ) < m := by exact_mod_cast (by omega : 0 < m)
  have hk : (1 : ℚ) ≤ k := by exact_mod_cast h1
  have hkm : (k : ℚ) ≤ m := by exact_mod_cast h2
  unfold Tank.nthSimTcouple
  rw [if_neg (by omega)]
  apply getResampledValue_spec t.nodeTs (Nat.succ_pos n)
  · apply div_nonneg _ hm.le; linarith
  · exact div_lt_div_of_pos_right (by linarith) hm
  · rw [div_le_one hm]; exact hkm

/-- **C21.** Indices outside `1..m` are rejected, and only those. -/
theorem C21_thermocouple_rejects (t : Tank n) (k m : ℤ) :
    t.nthSimTcouple k m = .error .error ↔ ¬ (1 ≤ k ∧ k ≤ m) := by
  constructor
  · rintro h ⟨h1, h2⟩
    rw [C21_thermocouple_value t k m h1 h2] at h
    cases h
  · intro h
    unfold Tank.nthSimTcouple
    rw [if_pos (by omega)]

/-- **C21.** Readings lie in the tank's temperature range. -/
theorem C21_thermocouple_range (t : Tank n) (k m : ℤ) (x lo hi : ℚ)
    (h : t.nthSimTcouple k m = .ok x) (hT : Within t.nodeTs lo hi) : lo ≤ x ∧ x ≤ hi := by
  by_cases hv : 1 ≤ k ∧ k ≤ m
  · rw [C21_thermocouple_value t k m hv.1 hv.2] at h
    cases h
    have hm : (0 : ℚ) < m := by exact_mod_cast (by omega : 0 < m)
    have hk : (1 : ℚ) ≤ k := by exact_mod_cast hv.1
    have hkm : (k : ℚ) ≤ m := by exact_mod_cast hv.2
    have hlt : ((k : ℚ) - 1) / m < (k : ℚ) / m := div_lt_div_of_pos_right (by linarith) hm
    have hb := profileIntegral_bounds t.nodeTs (Nat.succ_pos n) (a := ((k : ℚ) - 1) / m)
      (b := (k : ℚ) / m) (div_nonneg (by linarith) hm.le) hlt.le
      (by rw [div_le_one hm]; exact hkm) hT
    unfold profileAverage
    exact ⟨by rw [le_div_iff₀ (by linarith)]; exact hb.1,
      by rw [div_le_iff₀ (by linarith)]; exact hb.2⟩
  · rw [(C21_thermocouple_rejects t k m).mpr hv] at h
    cases h

/-- **C21.** The mean of all `m` readings is the mean tank temperature. -/
theorem C21_thermocouple_mean (t : Tank n) (m : ℕ) (hm : 0 < m) (x : Fin m → ℚ)
    (h : ∀ k : Fin m, t.nthSimTcouple (k + 1) m = .ok (x k)) :
    (∑ k, x k) / m = (∑ i, t.nodeTs i) / (n + 1) := by
  have hmQ : (0 : ℚ) < m := by exact_mod_cast hm
  have hx : ∀ k : Fin m, x k = cellAverage t.nodeTs m k := by
    intro k
    have h1 := h k
    rw [C21_thermocouple_value t _ _ (by omega) (by have := k.isLt; omega)] at h1
    rw [← Except.ok.inj h1]
    unfold cellAverage
    push_cast
    congr 1
    ring
  simp only [hx]
  rw [sum_cellAverage t.nodeTs (Nat.succ_pos n) hm]
  push_cast
  field_simp

example : ∃ x, warmTank.nthSimTcouple 2 3 = .ok x ∧ x = 35 := by decide +kernel

/-! ## C22 -/

/-- **C22.** For every valid distribution with non-negative weights, the weighted tank temperature is
defined (the evaluation never runs past the end of the distribution) and equals the average of the node
temperatures weighted by the weight density integrated over each node's height range. -/
theorem C22_weighted_average (d : WDist) (hd : d.Proper) (T : Fin (n + 1) → ℚ) :
    d.averageT T = .ok
      ((∑ k : Fin (n + 1), densityIntegral 0 d.rel ((k : ℚ) / (n + 1)) (((k : ℚ) + 1) / (n + 1)) * T k)
        / ∑ k : Fin (n + 1), densityIntegral 0 d.rel ((k : ℚ) / (n + 1)) (((k : ℚ) + 1) / (n + 1))) := by
  have h1 := WDist.averageT_eq (N := n + 1) (Nat.succ_pos n) hd T
  have h2 := WDist.sum_node_shares (N := n + 1) (Nat.succ_pos n) hd.valid
  push_cast at h1 h2
  rw [h2, h1]

/-- **C22.** The weighted temperature lies between the coldest and the hottest node; in particular a
uniform tank reads its own temperature. -/
theorem C22_weighted_average_range (d : WDist) (hd : d.Proper) (T : Fin (n + 1) → ℚ) (x lo hi : ℚ)
    (h : d.averageT T = .ok x) (hT : Within T lo hi) : lo ≤ x ∧ x ≤ hi := by
  rw [WDist.averageT_eq (N := n + 1) (Nat.succ_pos n) hd T] at h
  cases h
  have htot := WDist.total_pos hd
  have hsum := WDist.sum_node_shares (N := n + 1) (Nat.succ_pos n) hd.valid
  rw [le_div_iff₀ htot, div_le_iff₀ htot, ← hsum, Finset.mul_sum, Finset.mul_sum]
  constructor
  · apply Finset.sum_le_sum
    intro k _
    rw [mul_comm]
    exact mul_le_mul_of_nonneg_left (hT k).1 (densityIntegral_nonneg 0 (WDist.rel_nonneg hd) _ _)
  · apply Finset.sum_le_sum
    intro k _
    rw [mul_comm hi]
    exact mul_le_mul_of_nonneg_left (hT k).2 (densityIntegral_nonneg 0 (WDist.rel_nonneg hd) _ _)

/-- A sample distribution on a scale of 0 to 12 with an unweighted middle part. -/
def sampleDist : WDist := [⟨3, 2⟩, ⟨7, 0⟩, ⟨12, 1⟩]

theorem sampleDist_proper : sampleDist.Proper := ⟨by decide +kernel, by decide +kernel⟩

example : ∃ x, sampleDist.averageT warmTank.nodeTs = .ok x ∧ x = 350 / 11 := by decide +kernel

/-! ## C23 -/

/-- **C23.** The share of a valid distribution between two heights is the integral of its weight
density divided by the whole integral. -/
theorem C23_normalizedWeight_exact (d : WDist) (hd : d.Proper) (a b : ℚ) (ha : 0 ≤ a) (hab : a ≤ b) :
    d.normalizedWeight a b =
      .ok (densityIntegral 0 d.rel a b / densityIntegral 0 d.rel 0 1) :=
  WDist.normalizedWeight_eq hd.valid (WDist.total_pos hd).ne' ha hab

/-- **C23.** Shares are non-negative, additive over adjacent slices and total one. -/
theorem C23_normalizedWeight_additive (d : WDist) (hd : d.Proper) (a b c : ℚ) (ha : 0 ≤ a)
    (hab : a ≤ b) (hbc : b ≤ c) :
    ∃ x y z, d.normalizedWeight a b = .ok x ∧ d.normalizedWeight b c = .ok y ∧
      d.normalizedWeight a c = .ok z ∧ d.normalizedWeight 0 1 = .ok 1 ∧
      0 ≤ x ∧ 0 ≤ y ∧ x + y = z := by
  have htot := WDist.total_pos hd
  obtain ⟨_, _, hs, _, _⟩ := WDist.rel_facts hd.valid
  refine ⟨_, _, _, C23_normalizedWeight_exact d hd a b ha hab,
    C23_normalizedWeight_exact d hd b c (ha.trans hab) hbc,
    C23_normalizedWeight_exact d hd a c ha (hab.trans hbc), ?_, ?_, ?_, ?_⟩
  · rw [C23_normalizedWeight_exact d hd 0 1 le_rfl zero_le_one, div_self htot.ne']
  · exact div_nonneg (densityIntegral_nonneg 0 (WDist.rel_nonneg hd) _ _) htot.le
  · exact div_nonneg (densityIntegral_nonneg 0 (WDist.rel_nonneg hd) _ _) htot.le
  · rw [← add_div, densityIntegral_add hs hab hbc]

/-- **C23.** The per-node heating distribution of a valid distribution exists, is non-negative, sums to
one, and each entry is the share of that node's height range. -/
theorem C23_heat_distribution (d : WDist) (hd : d.Proper) (hN : 0 < N) :
    ∃ r, d.calcHeatDist N = .ok r ∧ (∀ i, 0 ≤ r i) ∧ ∑ i, r i = 1 ∧
      ∀ i : Fin N, d.normalizedWeight ((i : ℚ) / N) (((i : ℚ) + 1) / N) = .ok (r i) := by
  refine ⟨_, WDist.calcHeatDist_eq hd hN, fun i => WDist.share_nonneg hd N i,
    WDist.sum_share hd hN, fun i => ?_⟩
  have := WDist.nodeShare_eq hd N i
  unfold WDist.nodeShare at this
  push_cast at this
  exact this

example : ∃ r, sampleDist.calcHeatDist 4 = .ok r ∧ r = ![6 / 11, 0, 2 / 11, 3 / 11] := by
  decide +kernel

/-- Finding: a distribution the library calls valid may have negative weights; its shares can then be
undefined (division by a zero total). -/
theorem C23_valid_but_undefined :
    ∃ d : WDist, d.isValid = true ∧ d.normalizedWeight 0 1 = .error .nan :=
  ⟨[⟨1, 1⟩, ⟨2, -1⟩], by decide +kernel, by rw [WDist.normalizedWeight]; simp [WDist.maximumHeight, WDist.totalLoop]; norm_num⟩

/-! ## C24 -/

/-- **C24.** Normalising always terminates, for every vector of every length. -/
theorem C24_normalize_terminates (d : Fin N → ℚ) : ∃ r, normalize d = .ok r :=
  normalize_terminates d

/-- **C24.** Normalising a non-negative vector that is not all zero, of at most 10000 entries, gives
entries with sum one, each zero or at least the tolerance `0.0001`; zero entries stay zero; order is
kept; and the entries that are kept stay in proportion. -/
theorem C24_normalize_unit_sum (d r : Fin N → ℚ) (hN : N ≤ 10000) (hd : ∀ i, 0 ≤ d i)
    (hs : ∃ i, d i ≠ 0) (h : normalize d = .ok r) :
    ∑ i, r i = 1 ∧ (∀ i, r i = 0 ∨ 1 / 10000 ≤ r i) ∧ (∀ i, d i = 0 → r i = 0) ∧
    (∀ i j, d i ≤ d j → r i ≤ r j) ∧
    (∀ i j, r i ≠ 0 → r j ≠ 0 → d i * r j = d j * r i) := by
  obtain ⟨i, hi⟩ := hs
  have hpos : 0 < ∑ i, d i :=
    Finset.sum_pos' (fun j _ => hd j) ⟨i, Finset.mem_univ _, lt_of_le_of_ne (hd i) (Ne.symm hi)⟩
  obtain ⟨h1, h2, h3, h4, h5⟩ := normalizeLoop_spec (N + 1) d r hN hd hpos h
  refine ⟨h1, fun i => ?_, h3, h4, ?_⟩
  · have := h2 i; unfold tolMin at this; exact this
  · intro i j hi hj
    exact le_antisymm ((h5 i j).resolve_right hi) ((h5 j i).resolve_right hj)

example : ∃ r, normalize (![1 / 100000, 2, 0, 6] : Fin 4 → ℚ) = .ok r ∧ r = ![0, 1 / 4, 0, 3 / 4] := by
  decide +kernel

/-- Finding: with a negative entry the normalised vector need not sum to one. -/
theorem C24_negative_entry_breaks_sum :
    ∃ r, normalize (![2, -1] : Fin 2 → ℚ) = .ok r ∧ ∑ i, r i = 2 := by
  decide +kernel

/-- Finding: with more than 10000 equal entries everything is zeroed: the bound in
`C24_normalize_unit_sum` is sharp. -/
theorem C24_too_many_entries (hN : 10000 < N) :
    normalize (fun _ : Fin N => (1 : ℚ)) = .ok (fun _ => 0) := by
  have hNQ : (0 : ℚ) < N := by exact_mod_cast (by omega : 0 < N)
  have hsum : ∑ _i : Fin N, (1 : ℚ) = N := by simp
  have hlt : (1 : ℚ) / N < tolMin := by
    unfold tolMin
    rw [div_lt_div_iff₀ hNQ (by norm_num)]
    have : (10000 : ℚ) < N := by exact_mod_cast hN
    linarith
  have hpass : normalizePass (fun _ : Fin N => (1 : ℚ)) = (fun _ => 0, true) := by
    unfold normalizePass
    simp only [hsum, gt_iff_lt, hNQ, if_true, hlt]
    congr 1
    apply decide_eq_true
    exact ⟨⟨0, by omega⟩, trivial, by positivity⟩
  have hpass2 : normalizePass (fun _ : Fin N => (0 : ℚ)) = (fun _ => 0, false) := by
    unfold normalizePass
    simp
  obtain ⟨k, rfl⟩ : ∃ k, N = k + 1 := ⟨N - 1, by omega⟩
  unfold normalize
  rw [normalizeLoop, hpass]
  simp only [if_true]
  rw [normalizeLoop, hpass2]
  simp

/-! ## C25 -/

/-- **C25.** For every profile of at most 10000 nodes, setpoint, non-zero shrinkage and lowest coil
node, and whatever non-negative function stands for the exponential, the wrapped-condenser heat
distribution exists, is non-negative and sums to one; if some node at or above the lowest coil node is
below setpoint, nodes below the coil and nodes at or above setpoint get no heat. -/
theorem C25_thermal_distribution (exp : ℚ → ℚ) (hexp : ∀ x, 0 ≤ exp x) (shr : ℚ) (hshr : shr ≠ 0)
    (low : Fin (n + 1)) (T : Fin (n + 1) → ℚ) (sp : ℚ) (hn : n + 1 ≤ 10000) :
    ∃ r, calcThermalDist exp shr low T sp = .ok r ∧ (∀ i, 0 ≤ r i) ∧ ∑ i, r i = 1 ∧
      ((∃ i, low ≤ i ∧ T i < sp) → ∀ i, (i < low ∨ sp ≤ T i) → r i = 0) :=
  calcThermalDist_spec exp hexp shr hshr low T sp hn

/-- **C25.** The lowest coil node of a valid distribution is a node of the tank, carries weight, and no
lower node does. -/
theorem C25_lowest_node (d : WDist) (hd : d.Proper) (hN : 0 < N) :
    d.findLowestNode N < N ∧
    (∃ x, d.normalizedWeight ((d.findLowestNode N : ℚ) / N) (((d.findLowestNode N : ℚ) + 1) / N)
      = .ok x ∧ 0 < x) ∧
    ∀ k, k < d.findLowestNode N →
      d.normalizedWeight ((k : ℚ) / N) (((k : ℚ) + 1) / N) = .ok 0 := by
  obtain ⟨h1, h2, h3⟩ := WDist.findLowestNode_spec hd hN
  have key : ∀ k : ℕ, d.normalizedWeight ((k : ℚ) / N) (((k : ℚ) + 1) / N) = .ok (d.share N k) := by
    intro k
    have := WDist.nodeShare_eq hd N k
    unfold WDist.nodeShare at this
    push_cast at this
    exact this
  exact ⟨h1, ⟨_, key _, h2⟩, fun k hk => by rw [key, h3 k hk]⟩

example : ∃ r, calcThermalDist (n := 3) (fun _ => 1) 1 1 (![20, 30, 40, 60] : Fin 4 → ℚ) 50 = .ok r ∧
    r = ![0, 2 / 3, 1 / 3, 0] := by
  decide +kernel

example : WDist.findLowestNode [⟨3, 0⟩, ⟨12, 1⟩] 8 = 2 := by decide +kernel

end HPWH
