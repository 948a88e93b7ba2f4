import Mathlib.Data.Finset.Card
import Verif.Lemmas.Profile

/-! Helper lemmas about `normalize` and `calcThermalDist`. -/

namespace HPWH

variable {N : ℕ}

/-- Entries that are positive. -/
def positives (d : Fin N → ℚ) : Finset (Fin N) := Finset.univ.filter fun i => 0 < d i

theorem normalizePass_positives (d : Fin N → ℚ) (h : (normalizePass d).2 = true) :
    (positives (normalizePass d).1).card < (positives d).card := by
  unfold normalizePass at h ⊢
  by_cases hs : ∑ i, d i > 0
  · simp only [hs, if_true] at h ⊢
    obtain ⟨i, hi1, hi2⟩ := of_decide_eq_true h
    apply Finset.card_lt_card
    rw [Finset.ssubset_iff_of_subset]
    · refine ⟨i, ?_, ?_⟩
      · simp only [positives, Finset.mem_filter, Finset.mem_univ, true_and]
        exact (div_pos_iff_of_pos_right hs).mp hi2
      · simp [positives, hi1]
    · intro j hj
      simp only [positives, Finset.mem_filter, Finset.mem_univ, true_and] at hj ⊢
      split_ifs at hj with hc
      · exact absurd hj (lt_irrefl _)
      · exact (div_pos_iff_of_pos_right hs).mp hj
  · simp [hs] at h

theorem normalizeLoop_ok (fuel : ℕ) (d : Fin N → ℚ) (h : (positives d).card < fuel) :
    ∃ r, normalizeLoop fuel d = .ok r := by
  induction fuel generalizing d with
  | zero => omega
  | succ fuel ih =>
    rw [normalizeLoop]
    by_cases hp : (normalizePass d).2 = true
    · simp only [hp, if_true]
      exact ih _ (by have := normalizePass_positives d hp; omega)
    · simp only [hp]
      exact ⟨_, rfl⟩

/-- The loop of `normalize` always stops, whatever the entries. -/
theorem normalize_terminates (d : Fin N → ℚ) : ∃ r, normalize d = .ok r := by
  apply normalizeLoop_ok
  have : (positives d).card ≤ (Finset.univ : Finset (Fin N)).card := Finset.card_filter_le _ _
  rw [Finset.card_univ, Fintype.card_fin] at this
  omega

theorem tolMin_pos : 0 < tolMin := by unfold tolMin; norm_num

/-- Some entry of a pass survives when there are at most 10000 entries. -/
theorem normalizePass_sum_pos (d : Fin N → ℚ) (hN : N ≤ 10000) (hs : 0 < ∑ i, d i) :
    0 < ∑ i, (normalizePass d).1 i := by
  have hN0 : 0 < N := by
    rcases Nat.eq_zero_or_pos N with h | h
    · subst h; simp at hs
    · exact h
  have hNQ : (0 : ℚ) < N := by exact_mod_cast hN0
  unfold normalizePass
  simp only [gt_iff_lt, hs, if_true]
  -- an entry at least the mean
  have hex : ∃ i, (∑ i, d i) / N ≤ d i := by
    by_contra hcon
    push Not at hcon
    have : ∑ i, d i < ∑ _i : Fin N, (∑ i, d i) / N :=
      Finset.sum_lt_sum_of_nonempty ⟨⟨0, hN0⟩, Finset.mem_univ _⟩ (fun i _ => hcon i)
    rw [Finset.sum_const, Finset.card_univ, Fintype.card_fin, nsmul_eq_mul,
      mul_div_cancel₀ _ hNQ.ne'] at this
    exact lt_irrefl _ this
  obtain ⟨i, hi⟩ := hex
  have hnn : ∀ j, 0 ≤ (if d j / ∑ i, d i < tolMin then 0 else d j / ∑ i, d i) := by
    intro j
    split_ifs with hj
    · exact le_rfl
    · exact tolMin_pos.le.trans (not_lt.mp hj)
  refine Finset.sum_pos' (fun j _ => hnn j) ⟨i, Finset.mem_univ _, ?_⟩
  have h1 : tolMin ≤ d i / ∑ i, d i := by
    rw [le_div_iff₀ hs]
    have h2 : tolMin * ∑ i, d i ≤ (∑ i, d i) / N := by
      rw [le_div_iff₀ hNQ]
      have : (N : ℚ) ≤ 10000 := by exact_mod_cast hN
      unfold tolMin
      nlinarith
    linarith
  rw [if_neg (not_lt.mpr h1)]
  exact lt_of_lt_of_le tolMin_pos h1

theorem normalizePass_nonneg (d : Fin N → ℚ) (i : Fin N) : 0 ≤ (normalizePass d).1 i := by
  unfold normalizePass
  dsimp only
  split_ifs with hs
  · simp only
    split_ifs with hj
    · exact le_rfl
    · exact tolMin_pos.le.trans (not_lt.mp hj)
  · exact le_rfl

theorem normalizePass_mono (d : Fin N → ℚ) (i j : Fin N) (h : d i ≤ d j) :
    (normalizePass d).1 i ≤ (normalizePass d).1 j := by
  unfold normalizePass
  dsimp only
  split_ifs with hs
  · simp only
    have hd : d i / ∑ i, d i ≤ d j / ∑ i, d i := div_le_div_of_nonneg_right h (le_of_lt hs)
    split_ifs with h1 h2 h2
    · exact le_rfl
    · exact tolMin_pos.le.trans (not_lt.mp h2)
    · exact absurd (lt_of_le_of_lt hd h2) h1
    · exact hd
  · exact le_rfl

theorem normalizeLoop_spec (fuel : ℕ) (d r : Fin N → ℚ) (hN : N ≤ 10000) (hd : ∀ i, 0 ≤ d i)
    (hs : 0 < ∑ i, d i) (h : normalizeLoop fuel d = .ok r) :
    ∑ i, r i = 1 ∧ (∀ i, r i = 0 ∨ tolMin ≤ r i) ∧ (∀ i, d i = 0 → r i = 0) ∧
    (∀ i j, d i ≤ d j → r i ≤ r j) ∧ (∀ i j, d i * r j ≤ d j * r i ∨ r i = 0) := by
  induction fuel generalizing d with
  | zero => cases h
  | succ fuel ih =>
    rw [normalizeLoop] at h
    by_cases hp : (normalizePass d).2 = true
    · simp only [hp, if_true] at h
      obtain ⟨h1, h2, h3, h4, h5⟩ := ih _ (normalizePass_nonneg d) (normalizePass_sum_pos d hN hs) h
      refine ⟨h1, h2, ?_, ?_, ?_⟩
      · intro i hi
        apply h3
        unfold normalizePass
        simp [hi, hs]
      · intro i j hij
        exact h4 i j (normalizePass_mono d i j hij)
      · intro i j
        rcases h5 i j with h | h
        · by_cases hri : r i = 0
          · exact Or.inr hri
          left
          -- entry i survived this pass
          have hi' : (normalizePass d).1 i ≠ 0 := fun hc => hri (h3 i hc)
          have ei : (normalizePass d).1 i = d i / ∑ i, d i := by
            unfold normalizePass at hi' ⊢
            simp only [gt_iff_lt, hs, if_true] at hi' ⊢
            split_ifs at hi' ⊢ with hc
            · exact absurd rfl hi'
            · rfl
          have ej : (normalizePass d).1 j ≤ d j / ∑ i, d i := by
            unfold normalizePass
            simp only [gt_iff_lt, hs, if_true]
            split_ifs with hc
            · exact div_nonneg (hd j) hs.le
            · exact le_rfl
          rw [ei] at h
          have hri0 : 0 ≤ r i := by
            rcases h2 i with h' | h'
            · rw [h']
            · exact tolMin_pos.le.trans h'
          have : d i / (∑ i, d i) * r j ≤ d j / (∑ i, d i) * r i :=
            h.trans (mul_le_mul_of_nonneg_right ej hri0)
          rw [div_mul_eq_mul_div, div_mul_eq_mul_div, div_le_div_iff_of_pos_right hs] at this
          exact this
        · exact Or.inr h
    · simp only [hp] at h
      cases h
      have hcond : ∀ i, ¬ (d i / ∑ i, d i < tolMin ∧ d i / ∑ i, d i > 0) := by
        intro i hi
        apply hp
        unfold normalizePass
        simp only [gt_iff_lt, hs, if_true]
        exact decide_eq_true ⟨i, hi⟩
      have heq : (normalizePass d).1 = fun i => d i / ∑ i, d i := by
        funext i
        unfold normalizePass
        simp only [gt_iff_lt, hs, if_true]
        split_ifs with hc
        · have h0 : ¬ d i / ∑ i, d i > 0 := fun h => hcond i ⟨hc, h⟩
          exact le_antisymm (div_nonneg (hd i) hs.le) (not_lt.mp h0)
        · rfl
      refine ⟨?_, ?_, ?_, ?_, ?_⟩
      · rw [heq, ← Finset.sum_div, div_self hs.ne']
      · intro i
        unfold normalizePass
        simp only [gt_iff_lt, hs, if_true]
        split_ifs with hc
        · exact Or.inl rfl
        · exact Or.inr (not_lt.mp hc)
      · intro i hi
        rw [heq]; simp [hi]
      · intro i j hij
        exact normalizePass_mono d i j hij
      · intro i j
        left
        rw [heq]
        simp only
        rw [mul_div_assoc', mul_div_assoc', mul_comm]

/-! ### Thermal distribution -/

variable {n : ℕ}

theorem thermalRaw_nonneg (exp : ℚ → ℚ) (shr : ℚ) (low : Fin (n + 1)) (T : Fin (n + 1) → ℚ)
    (sp : ℚ) (i : Fin (n + 1)) : 0 ≤ thermalRaw exp shr low T sp i := by
  unfold thermalRaw
  split_ifs with h1
  · simp only
    split_ifs with h2
    · exact le_rfl
    · exact not_lt.mp h2
  · exact le_rfl

theorem expit_pos (exp : ℚ → ℚ) (hexp : ∀ x, 0 ≤ exp x) (x o : ℚ) : 0 < expit exp x o := by
  unfold expit
  have := hexp (x - o)
  positivity

theorem thermalRaw_pos_iff (exp : ℚ → ℚ) (hexp : ∀ x, 0 ≤ exp x) (shr : ℚ) (low : Fin (n + 1))
    (T : Fin (n + 1) → ℚ) (sp : ℚ) (i : Fin (n + 1)) :
    0 < thermalRaw exp shr low T sp i ↔ low ≤ i ∧ T i < sp := by
  unfold thermalRaw
  have he := expit_pos exp hexp ((T i - T low) / shr) (5 / (18 / 10))
  split_ifs with h1
  · simp only
    split_ifs with h2
    · simp only [lt_irrefl, h1, true_and, false_iff, not_lt]
      by_contra hc
      have : 0 < expit exp ((T i - T low) / shr) (5 / (18 / 10)) * (sp - T i) :=
        mul_pos he (by linarith)
      linarith
    · simp only [h1, true_and]
      rw [mul_pos_iff_of_pos_left he, sub_pos]
  · simp [h1]

theorem calcThermalDist_spec (exp : ℚ → ℚ) (hexp : ∀ x, 0 ≤ exp x) (shr : ℚ) (hshr : shr ≠ 0)
    (low : Fin (n + 1)) (T : Fin (n + 1) → ℚ) (sp : ℚ) (hn : n + 1 ≤ 10000) :
    ∃ r, calcThermalDist exp shr low T sp = .ok r ∧ (∀ i, 0 ≤ r i) ∧ ∑ i, r i = 1 ∧
      ((∃ i, low ≤ i ∧ T i < sp) → ∀ i, (i < low ∨ sp ≤ T i) → r i = 0) := by
  unfold calcThermalDist
  simp only [hshr, if_false]
  have hnn := thermalRaw_nonneg exp shr low T sp
  by_cases hs : ∑ i, thermalRaw exp shr low T sp i > 0
  · simp only [hs, if_true]
    obtain ⟨r, hr⟩ := normalize_terminates (thermalRaw exp shr low T sp)
    obtain ⟨h1, h2, h3, h4, h5⟩ := normalizeLoop_spec (n + 1 + 1) _ r hn hnn hs hr
    refine ⟨r, hr, fun i => ?_, h1, ?_⟩
    · rcases h2 i with h | h
      · rw [h]
      · exact tolMin_pos.le.trans h
    · rintro - i hi
      apply h3
      refine le_antisymm ?_ (hnn i)
      rw [← not_lt, thermalRaw_pos_iff exp hexp]
      rintro ⟨ha, hb⟩
      rcases hi with hi | hi
      · exact absurd ha (not_le.mpr hi)
      · exact absurd hb (not_lt.mpr hi)
  · simp only [hs, if_false]
    refine ⟨_, rfl, fun i => by positivity, ?_, ?_⟩
    · rw [Finset.sum_const, Finset.card_univ, Fintype.card_fin, nsmul_eq_mul]
      push_cast
      field_simp
    · rintro ⟨i, hi1, hi2⟩
      exfalso
      apply hs
      exact Finset.sum_pos' (fun j _ => hnn j)
        ⟨i, Finset.mem_univ _, (thermalRaw_pos_iff exp hexp shr low T sp i).mpr ⟨hi1, hi2⟩⟩

end HPWH
