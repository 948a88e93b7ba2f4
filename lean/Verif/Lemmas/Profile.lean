import Mathlib.Tactic.Linarith
import Mathlib.Tactic.Ring
import Mathlib.Tactic.FieldSimp
import Mathlib.Tactic.Positivity
import Mathlib.Algebra.BigOperators.Field
import Mathlib.Algebra.Order.BigOperators.Ring.Finset
import Verif.Spec.Profile
import Verif.Model.Utils

/-! Helper lemmas: overlaps, resampling, weighted distributions. -/

namespace HPWH
namespace Spec

theorem overlap_nonneg (lo hi a b : ℚ) : 0 ≤ overlap lo hi a b := le_max_left _ _

theorem overlap_self (lo hi a : ℚ) : overlap lo hi a a = 0 := by
  unfold overlap
  apply max_eq_left
  have h1 := min_le_right hi a
  have h2 := le_max_right lo a
  linarith

theorem overlap_add (lo hi : ℚ) {a b c : ℚ} (h : lo ≤ hi) (hab : a ≤ b) (hbc : b ≤ c) :
    overlap lo hi a b + overlap lo hi b c = overlap lo hi a c := by
  unfold overlap
  simp only [max_def, min_def]
  split_ifs <;> linarith

theorem overlap_le (lo hi : ℚ) {a b : ℚ} (h : a ≤ b) : overlap lo hi a b ≤ b - a := by
  unfold overlap
  simp only [max_def, min_def]
  split_ifs <;> linarith

/-- Joining adjacent intervals on the other argument. -/
theorem overlap_add' {lo mid hi : ℚ} (a b : ℚ) (h1 : lo ≤ mid) (h2 : mid ≤ hi) (hab : a ≤ b) :
    overlap lo mid a b + overlap mid hi a b = overlap lo hi a b := by
  unfold overlap
  simp only [max_def, min_def]
  split_ifs <;> linarith

theorem overlap_inside {lo hi a b : ℚ} (h1 : lo ≤ a) (h2 : b ≤ hi) (hab : a ≤ b) :
    overlap lo hi a b = b - a := by
  unfold overlap
  rw [min_eq_right h2, max_eq_right h1, max_eq_right (by linarith)]

theorem overlap_contains {lo hi a b : ℚ} (h1 : a ≤ lo) (h2 : hi ≤ b) (h : lo ≤ hi) :
    overlap lo hi a b = hi - lo := by
  unfold overlap
  rw [min_eq_left h2, max_eq_left h1, max_eq_right (by linarith)]

theorem overlap_disjoint_right {lo hi a b : ℚ} (h : b ≤ lo) : overlap lo hi a b = 0 := by
  unfold overlap
  apply max_eq_left
  have h1 := min_le_right hi b
  have h2 := le_max_left lo a
  linarith

theorem overlap_disjoint_left {lo hi a b : ℚ} (h : hi ≤ a) : overlap lo hi a b = 0 := by
  unfold overlap
  apply max_eq_left
  have h1 := min_le_left hi b
  have h2 := le_max_right lo a
  linarith

variable {n : ℕ}

theorem cell_le (n : ℕ) (i : ℕ) : (i : ℚ) / n ≤ ((i : ℚ) + 1) / n :=
  div_le_div_of_nonneg_right (by linarith) (by positivity)

/-- A slice inside a single cell only sees that cell's value. -/
theorem profileIntegral_cell (v : Fin n → ℚ) (k : Fin n) {p q : ℚ} (h1 : (k : ℚ) / n ≤ p)
    (h2 : q ≤ ((k : ℚ) + 1) / n) (hpq : p ≤ q) : profileIntegral v p q = v k * (q - p) := by
  unfold profileIntegral
  have hn : (0 : ℚ) < n := by
    have := k.isLt
    exact_mod_cast (by omega : 0 < n)
  rw [Finset.sum_eq_single k]
  · rw [overlap_inside h1 h2 hpq]
  · intro i _ hik
    rcases lt_or_gt_of_ne hik with h | h
    · rw [overlap_disjoint_left, mul_zero]
      refine le_trans (div_le_div_of_nonneg_right ?_ hn.le) h1
      have : i.val + 1 ≤ k.val := h
      exact_mod_cast this
    · rw [overlap_disjoint_right, mul_zero]
      refine le_trans h2 (div_le_div_of_nonneg_right ?_ hn.le)
      have : k.val + 1 ≤ i.val := h
      exact_mod_cast this
  · intro h
    exact absurd (Finset.mem_univ k) h

theorem profileIntegral_add (v : Fin n → ℚ) {a b c : ℚ} (hab : a ≤ b) (hbc : b ≤ c) :
    profileIntegral v a b + profileIntegral v b c = profileIntegral v a c := by
  unfold profileIntegral
  rw [← Finset.sum_add_distrib]
  apply Finset.sum_congr rfl
  intro i _
  rw [← overlap_add _ _ (cell_le n i) hab hbc]
  ring

theorem profileIntegral_self (v : Fin n → ℚ) (a : ℚ) : profileIntegral v a a = 0 := by
  unfold profileIntegral
  simp [overlap_self]

/-- The cells tile `[0,1]`. -/
theorem sum_overlap_cells (n : ℕ) (hn : 0 < n) {a b : ℚ} (ha : 0 ≤ a) (hab : a ≤ b) (hb : b ≤ 1) :
    ∑ i : Fin n, overlap ((i : ℚ) / n) (((i : ℚ) + 1) / n) a b = b - a := by
  have hnQ : (0 : ℚ) < n := by exact_mod_cast hn
  have key : ∀ k : ℕ, ∑ i ∈ Finset.range k, overlap ((i : ℚ) / n) (((i : ℚ) + 1) / n) a b =
      overlap 0 ((k : ℚ) / n) a b := by
    intro k
    induction k with
    | zero =>
      simp only [Finset.range_zero, Finset.sum_empty, Nat.cast_zero, zero_div]
      exact (overlap_disjoint_left ha).symm
    | succ k ih =>
      rw [Finset.sum_range_succ, ih,
        overlap_add' a b (by positivity) (cell_le n k) hab]
      push_cast
      rfl
  rw [Fin.sum_univ_eq_sum_range (fun i => overlap ((i : ℚ) / n) (((i : ℚ) + 1) / n) a b) n, key n,
    div_self hnQ.ne', overlap_inside ha hb hab]

theorem profileIntegral_bounds (v : Fin n → ℚ) (hn : 0 < n) {a b lo hi : ℚ} (ha : 0 ≤ a)
    (hab : a ≤ b) (hb : b ≤ 1) (h : ∀ i, lo ≤ v i ∧ v i ≤ hi) :
    lo * (b - a) ≤ profileIntegral v a b ∧ profileIntegral v a b ≤ hi * (b - a) := by
  unfold profileIntegral
  rw [← sum_overlap_cells n hn ha hab hb, Finset.mul_sum, Finset.mul_sum]
  exact ⟨Finset.sum_le_sum fun i _ => mul_le_mul_of_nonneg_right (h i).1 (overlap_nonneg _ _ _ _),
    Finset.sum_le_sum fun i _ => mul_le_mul_of_nonneg_right (h i).2 (overlap_nonneg _ _ _ _)⟩

/-- Whole-range integral is the mean. -/
theorem profileIntegral_full (v : Fin n → ℚ) (hn : 0 < n) :
    profileIntegral v 0 1 = (∑ i, v i) / n := by
  have hnQ : (0 : ℚ) < n := by exact_mod_cast hn
  unfold profileIntegral
  rw [Finset.sum_div]
  apply Finset.sum_congr rfl
  intro i _
  have hi := i.isLt
  rw [overlap_contains (by positivity) _ (cell_le n i)]
  · field_simp; ring
  · rw [div_le_one hnQ]
    exact_mod_cast hi

/-- Integrals over equal slices add up. -/
theorem sum_profileIntegral (v : Fin n → ℚ) (m : ℕ) :
    ∀ k : ℕ, ∑ j ∈ Finset.range k, profileIntegral v ((j : ℚ) / m) (((j : ℚ) + 1) / m) =
      profileIntegral v 0 ((k : ℚ) / m) := by
  intro k
  induction k with
  | zero => simp [profileIntegral_self]
  | succ k ih =>
    rw [Finset.sum_range_succ, ih, profileIntegral_add v (by positivity) (cell_le m k)]
    push_cast
    rfl

end Spec

open Spec

variable {m n : ℕ}

theorem resampledLoop_spec (v : Fin n → ℚ) (hn : 0 < n) (b : ℚ) (hb : b ≤ 1) (fuel index : ℕ)
    (prev totV totW : ℚ) (hfuel : n + 1 ≤ fuel + index) (hf : 0 < fuel) (hpb : prev ≤ b)
    (hcell : prev < b → (index : ℚ) / n ≤ prev ∧ prev < ((index : ℚ) + 1) / n) :
    resampledLoop v b fuel index prev prev totV totW =
      .ok (totV + profileIntegral v prev b, totW + (b - prev)) := by
  have hnQ : (0 : ℚ) < n := by exact_mod_cast hn
  induction fuel generalizing index prev totV totW with
  | zero => omega
  | succ fuel ih =>
    rw [resampledLoop]
    by_cases hlt : prev < b
    · obtain ⟨h1, h2⟩ := hcell hlt
      have hin : index < n := by
        have : (index : ℚ) / n < 1 := by linarith
        rw [div_lt_one hnQ] at this
        exact_mod_cast this
      simp only [hlt, if_true, hin, dif_pos]
      by_cases hc : (((index + 1 : ℕ) : ℚ) / n) > b
      · simp only [hc, if_true]
        have hc' : b ≤ ((index : ℚ) + 1) / n := by push_cast at hc; exact hc.le
        rw [ih (index + 1) b _ _ (by omega) (by omega) le_rfl (fun h => absurd h (lt_irrefl _))]
        rw [profileIntegral_self, profileIntegral_cell v ⟨index, hin⟩ h1 hc' hpb]
        congr 2 <;> ring
      · simp only [hc, if_false]
        have hc' : ((index : ℚ) + 1) / n ≤ b := by
          push_cast at hc; exact not_lt.mp hc
        have hx : (((index + 1 : ℕ) : ℚ) / n) = ((index : ℚ) + 1) / n := by push_cast; rfl
        rw [hx]
        rw [ih (index + 1) _ _ _ (by omega) (by omega) hc' ?_]
        · rw [← profileIntegral_add v h2.le hc',
            profileIntegral_cell v ⟨index, hin⟩ h1 le_rfl h2.le]
          congr 2 <;> ring
        · intro _
          push_cast
          refine ⟨le_rfl, ?_⟩
          apply div_lt_div_of_pos_right _ hnQ
          linarith
    · have : prev = b := le_antisymm hpb (not_lt.mp hlt)
      subst this
      simp [profileIntegral_self]

/-- `getResampledValue` is the average of the profile over the (sorted) range. -/
theorem getResampledValue_spec (v : Fin n → ℚ) (hn : 0 < n) {a b : ℚ} (ha : 0 ≤ a) (hab : a < b)
    (hb : b ≤ 1) : getResampledValue v a b = .ok (profileAverage v a b) := by
  have hnQ : (0 : ℚ) < n := by exact_mod_cast hn
  unfold getResampledValue
  simp only [not_lt.mpr hab.le, if_false, gt_iff_lt, not_lt.mpr ha, not_lt.mpr hb]
  have hfl := Nat.floor_le (mul_nonneg ha hnQ.le)
  have hfl' := Nat.lt_floor_add_one (a * n)
  rw [resampledLoop_spec v hn b hb (n + 2) _ a 0 0 (by omega) (by omega) hab.le]
  · have : b - a > 0 := by linarith
    simp [profileAverage, hab]
  · intro _
    constructor
    · rw [div_le_iff₀ hnQ]; exact hfl
    · rw [lt_div_iff₀ hnQ]; exact hfl'

/-- Average of the profile over cell `j` of `m`. -/
def cellAverage (v : Fin n → ℚ) (m j : ℕ) : ℚ :=
  profileAverage v ((j : ℚ) / m) (((j : ℚ) + 1) / m)

theorem cellAverage_of_inside (v : Fin n → ℚ) (hn : 0 < n) (hm : 0 < m) (s : Fin n) (j : ℕ)
    (h1 : (s : ℚ) * m ≤ j * n) (h2 : ((j : ℚ) + 1) * n ≤ (s + 1) * m) :
    cellAverage v m j = v s := by
  have hnQ : (0 : ℚ) < n := by exact_mod_cast hn
  have hmQ : (0 : ℚ) < m := by exact_mod_cast hm
  have hlt : (j : ℚ) / m < ((j : ℚ) + 1) / m := div_lt_div_of_pos_right (by linarith) hmQ
  unfold cellAverage profileAverage
  rw [profileIntegral_cell v s _ _ hlt.le]
  · rw [mul_div_assoc, div_self (by linarith), mul_one]
  · rw [div_le_div_iff₀ hnQ hmQ]; exact h1
  · rw [div_le_div_iff₀ hmQ hnQ]; exact h2

theorem resampleBody_spec (v : Fin n → ℚ) (hn : 0 < n) (index : ℕ) (values : Fin m → ℚ)
    (hi : index < m)
    (hdone : ∀ k : Fin m, k.val < index → values k = cellAverage v m k) :
    ∃ index' values', resampleBody v index hi ((index : ℚ) / m) values =
        .ok (index', (index' : ℚ) / m, values') ∧ index < index' ∧ index' ≤ m ∧
      ∀ k : Fin m, k.val < index' → values' k = cellAverage v m k := by
  have hnQ : (0 : ℚ) < n := by exact_mod_cast hn
  have hm : 0 < m := by omega
  have hmQ : (0 : ℚ) < m := by exact_mod_cast hm
  unfold resampleBody
  generalize hratio : (n : ℚ) / m = ratio
  have hr : 0 < ratio := hratio ▸ div_pos hnQ hmQ
  simp only
  have hs1 : (⌊(index : ℚ) * ratio⌋₊ : ℚ) ≤ index * ratio := Nat.floor_le (by positivity)
  have hs2 : (index : ℚ) * ratio < ⌊(index : ℚ) * ratio⌋₊ + 1 := Nat.lt_floor_add_one _
  revert hs1 hs2
  generalize ⌊(index : ℚ) * ratio⌋₊ = s
  intro hs1 hs2
  have hiQ : (index : ℚ) + 1 ≤ m := by exact_mod_cast hi
  by_cases hc : (s : ℚ) + 1 < ((index : ℚ) + 1) * ratio
  · -- general case
    simp only [hc, if_true]
    have hlt : (index : ℚ) / m < ((index + 1 : ℕ) : ℚ) / m := by
      push_cast; exact div_lt_div_of_pos_right (by linarith) hmQ
    have hle1 : ((index + 1 : ℕ) : ℚ) / m ≤ 1 := by
      rw [div_le_one hmQ]; push_cast; exact hiQ
    rw [getResampledValue_spec v hn (by positivity) hlt hle1]
    refine ⟨index + 1, _, rfl, by omega, by omega, ?_⟩
    intro k hk
    by_cases hki : k.val = index
    · have : k = ⟨index, hi⟩ := Fin.ext hki
      subst this
      rw [Function.update_self]
      simp [cellAverage]
    · rw [Function.update_of_ne (fun hc => hki (congrArg Fin.val hc))]
      exact hdone k (by omega)
  · -- special case
    simp only [hc, if_false]
    have hc' := not_lt.mp hc
    have hsn : s < n := by
      have h1 : (index : ℚ) * ratio < n := by
        rw [← hratio, mul_div_assoc', div_lt_iff₀ hmQ]
        nlinarith
      have : (s : ℚ) < n := by linarith
      exact_mod_cast this
    have hr1 : ratio ≤ 1 := by nlinarith
    have hinv1 : (1 : ℚ) ≤ 1 / ratio := by rw [le_div_iff₀ hr]; linarith
    have hbin1 : 1 ≤ ⌊1 / ratio⌋₊ := Nat.one_le_floor_iff _ |>.mpr hinv1
    have hsA : (s : ℚ) / ratio ≤ index := by rw [div_le_iff₀ hr]; exact hs1
    have hcA : ⌈(s : ℚ) / ratio⌉₊ ≤ index := Nat.ceil_le.mpr hsA
    have hcA' : (s : ℚ) / ratio ≤ ⌈(s : ℚ) / ratio⌉₊ := Nat.le_ceil _
    have hsB : ((index + 1 : ℕ) : ℚ) ≤ ((s + 1 : ℕ) : ℚ) / ratio := by
      rw [le_div_iff₀ hr]; push_cast; exact hc'
    have hcB : index + 1 ≤ ⌊((s + 1 : ℕ) : ℚ) / ratio⌋₊ := Nat.le_floor hsB
    have hcB' : (⌊((s + 1 : ℕ) : ℚ) / ratio⌋₊ : ℚ) ≤ ((s + 1 : ℕ) : ℚ) / ratio :=
      Nat.floor_le (by positivity)
    have hcM : ⌊((s + 1 : ℕ) : ℚ) / ratio⌋₊ ≤ m := by
      have hx : ((s + 1 : ℕ) : ℚ) / ratio ≤ m := by
        rw [div_le_iff₀ hr, ← hratio, mul_div_cancel₀ _ hmQ.ne']
        exact_mod_cast hsn
      have := Nat.floor_le_floor hx
      rwa [Nat.floor_natCast] at this
    revert hbin1 hcA hcA' hcB hcB' hcM
    generalize ⌈(s : ℚ) / ratio⌉₊ = A
    generalize ⌊((s + 1 : ℕ) : ℚ) / ratio⌋₊ = B
    generalize ⌊1 / ratio⌋₊ = bin
    intro hbin1 hcA hcA' hcB hcB' hcM
    have hfillok : ∀ (first count : ℕ), A ≤ first → first ≤ index →
        index + 1 ≤ first + count → first + count ≤ B → ∀ k : Fin m, k.val < first + count →
        fillN values first count (v ⟨s, hsn⟩) k = cellAverage v m k := by
      intro first count h1 h2 h3 h4 k hk
      unfold fillN
      by_cases hk1 : first ≤ k.val
      · rw [if_pos ⟨hk1, hk⟩]
        symm
        apply cellAverage_of_inside v hn hm
        · have ha : (s : ℚ) / ratio ≤ k := by
            refine hcA'.trans ?_
            exact_mod_cast h1.trans hk1
          rw [← hratio, div_div_eq_mul_div, div_le_iff₀ hnQ] at ha
          exact ha
        · have hb : ((k.val + 1 : ℕ) : ℚ) ≤ ((s + 1 : ℕ) : ℚ) / ratio := by
            have hq : ((k.val + 1 : ℕ) : ℚ) ≤ (B : ℚ) := by
              exact_mod_cast (by omega : k.val + 1 ≤ B)
            exact hq.trans hcB'
          rw [← hratio, div_div_eq_mul_div, le_div_iff₀ hnQ] at hb
          push_cast at hb
          exact hb
      · rw [if_neg (by omega)]
        exact hdone k (by omega)
    simp only [hsn, dif_pos]
    by_cases hb : bin > 1
    · simp only [hb, if_true]
      rw [if_pos (by omega)]
      exact ⟨_, _, rfl, by omega, by omega, hfillok _ _ le_rfl hcA (by omega) (by omega)⟩
    · have hb' : bin = 1 := by omega
      subst hb'
      simp only [gt_iff_lt, lt_irrefl, if_false]
      rw [if_pos (by omega)]
      exact ⟨_, _, rfl, by omega, by omega, hfillok index 1 hcA le_rfl le_rfl hcB⟩

theorem resampleLoop_spec (v : Fin n → ℚ) (hn : 0 < n) (fuel index : ℕ) (values : Fin m → ℚ)
    (hfuel : m + 1 ≤ fuel + index) (hf : 0 < fuel) (him : index ≤ m)
    (hdone : ∀ k : Fin m, k.val < index → values k = cellAverage v m k) :
    resampleLoop v fuel index ((index : ℚ) / m) values = .ok (fun k => cellAverage v m k) := by
  induction fuel generalizing index values with
  | zero => omega
  | succ fuel ih =>
    rw [resampleLoop]
    by_cases hi : index < m
    · obtain ⟨index', values', he, h1, h2, h3⟩ := resampleBody_spec v hn index values hi hdone
      simp only [hi, dif_pos, he]
      exact ih index' values' (by omega) (by omega) h2 h3
    · simp only [hi, dif_neg, not_false_iff]
      congr 1
      funext k
      exact hdone k (by have := k.isLt; omega)

theorem resample_spec (values : Fin m → ℚ) (v : Fin n → ℚ) (hn : 0 < n) :
    resample values v = .ok (fun k => cellAverage v m k) := by
  unfold resample
  rw [if_neg (by omega)]
  have h := resampleLoop_spec (m := m) v hn (m + 1) 0 values (by omega) (by omega) (by omega)
    (fun k hk => absurd hk (by omega))
  simpa using h

theorem sum_cellAverage (v : Fin n → ℚ) (hn : 0 < n) (hm : 0 < m) :
    ∑ k : Fin m, cellAverage v m k = m * ((∑ i, v i) / n) := by
  have hmQ : (0 : ℚ) < m := by exact_mod_cast hm
  have h : ∀ j : ℕ, cellAverage v m j =
      m * profileIntegral v ((j : ℚ) / m) (((j : ℚ) + 1) / m) := by
    intro j
    unfold cellAverage profileAverage
    field_simp
    ring
  simp only [h]
  rw [← Finset.mul_sum, Fin.sum_univ_eq_sum_range
    (fun j => profileIntegral v ((j : ℚ) / m) (((j : ℚ) + 1) / m)) m, sum_profileIntegral v m m,
    div_self hmQ.ne', profileIntegral_full v hn]

theorem cellAverage_bounds (v : Fin n → ℚ) (hn : 0 < n) (k : Fin m) {lo hi : ℚ}
    (h : ∀ i, lo ≤ v i ∧ v i ≤ hi) : lo ≤ cellAverage v m k ∧ cellAverage v m k ≤ hi := by
  have hk := k.isLt
  have hmQ : (0 : ℚ) < m := by exact_mod_cast (by omega : 0 < m)
  have hlt : (k : ℚ) / m < ((k : ℚ) + 1) / m := div_lt_div_of_pos_right (by linarith) hmQ
  have hle1 : ((k : ℚ) + 1) / m ≤ 1 := by
    rw [div_le_one hmQ]; exact_mod_cast hk
  have hb := profileIntegral_bounds v hn (a := (k : ℚ) / m) (by positivity) hlt.le hle1 h
  unfold cellAverage profileAverage
  exact ⟨by rw [le_div_iff₀ (by linarith)]; exact hb.1, by rw [div_le_iff₀ (by linarith)]; exact hb.2⟩

end HPWH
