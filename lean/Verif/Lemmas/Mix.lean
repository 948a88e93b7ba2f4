import Verif.Model.Mix
import Mathlib.Order.Fin.Basic
import Mathlib.Algebra.BigOperators.Fin
import Mathlib.Algebra.BigOperators.Intervals
import Mathlib.Algebra.Order.BigOperators.Group.Finset
import Mathlib.Tactic.FieldSimp
import Mathlib.Tactic.Ring
import Mathlib.Tactic.Positivity

/-! Helper lemmas about inversion mixing. -/

namespace HPWH

variable {α σ : Type} [LinearOrder α] {n : ℕ}

theorem sortedUpTo_iff_monotone (T : Nodes n α) : SortedUpTo T n ↔ Monotone T := by
  rw [Fin.monotone_iff_le_succ]
  constructor
  · intro h i
    exact h i.val i.isLt le_rfl
  · intro h k hk _
    exact h ⟨k, hk⟩

/-- A sweep that reports no inversion left the profile alone, and it was sorted. -/
theorem sweepFrom_flag (M : Mixer α σ) (i : ℕ) (h : i ≤ n) (T : Nodes n α) (b : Bool)
    (hf : (sweepFrom M i h (T, b)).2 = false) :
    b = false ∧ (sweepFrom M i h (T, b)).1 = T ∧
    ∀ k, (hk : k < i) → T ⟨k, by omega⟩ ≤ T ⟨k + 1, by omega⟩ := by
  induction i generalizing T b with
  | zero => simpa [sweepFrom] using hf
  | succ i ih =>
    by_cases hc : T ⟨i + 1, by omega⟩ < T ⟨i, by omega⟩
    · simp only [sweepFrom, hc, if_true] at hf
      have := (ih (by omega) _ _ hf).1
      simp at this
    · simp only [sweepFrom, hc, if_false] at hf ⊢
      obtain ⟨h1, h2, h3⟩ := ih (by omega) _ _ hf
      refine ⟨h1, h2, fun k hk => ?_⟩
      by_cases hki : k < i
      · exact h3 k hki
      · have : k = i := by omega
        subst this
        exact not_lt.mp hc

theorem sweep_flag (M : Mixer α σ) (T : Nodes n α) (hf : (sweep M T).2 = false) :
    (sweep M T).1 = T ∧ Monotone T := by
  obtain ⟨_, h2, h3⟩ := sweepFrom_flag M n le_rfl T false hf
  exact ⟨h2, (sortedUpTo_iff_monotone T).mp (fun k hk _ => h3 k hk)⟩

theorem mixLoop_monotone (M : Mixer α σ) (f : ℕ) (T T' : Nodes n α)
    (h : mixLoop M f T = some T') : Monotone T' := by
  induction f generalizing T with
  | zero => simp [mixLoop] at h
  | succ f ih =>
    rw [mixLoop] at h
    by_cases hf : (sweep M T).2
    · simp only [hf, if_true] at h
      exact ih _ h
    · simp only [hf] at h
      have := sweep_flag M T (by simpa using hf)
      simp at h
      rw [← h, this.1]
      exact this.2

/-- Any property preserved by one merge step is preserved by the whole of inversion mixing. -/
theorem sweepFrom_induct (M : Mixer α σ) (P : Nodes n α → Prop)
    (hm : ∀ T i, (h : i + 1 ≤ n) → T ⟨i + 1, by omega⟩ < T ⟨i, by omega⟩ → P T →
      P (assignRange T (mixScan M T (i + 1) h M.init).1 (i + 1) (mixScan M T (i + 1) h M.init).2))
    (i : ℕ) (h : i ≤ n) (s : Nodes n α × Bool) (hs : P s.1) : P (sweepFrom M i h s).1 := by
  induction i generalizing s with
  | zero => simpa [sweepFrom] using hs
  | succ i ih =>
    obtain ⟨T, b⟩ := s
    by_cases hc : T ⟨i + 1, by omega⟩ < T ⟨i, by omega⟩
    · simp only [sweepFrom, hc, if_true]
      exact ih (by omega) _ (hm T i h hc hs)
    · simp only [sweepFrom, hc, if_false]
      exact ih (by omega) _ hs

theorem mixLoop_induct (M : Mixer α σ) (P : Nodes n α → Prop)
    (hm : ∀ T i, (h : i + 1 ≤ n) → T ⟨i + 1, by omega⟩ < T ⟨i, by omega⟩ → P T →
      P (assignRange T (mixScan M T (i + 1) h M.init).1 (i + 1) (mixScan M T (i + 1) h M.init).2))
    (f : ℕ) (T T' : Nodes n α) (hT : P T) (h : mixLoop M f T = some T') : P T' := by
  induction f generalizing T with
  | zero => simp [mixLoop] at h
  | succ f ih =>
    rw [mixLoop] at h
    have hsw : P (sweep M T).1 := sweepFrom_induct M P hm n le_rfl (T, false) hT
    by_cases hf : (sweep M T).2
    · simp only [hf, if_true] at h
      exact ih _ hsw h
    · simp [hf] at h
      rwa [← h]

theorem mixInversionsWith_spec (M : Mixer α σ) (T : Nodes n α) :
    mixLoop M (n + 1) T = some (mixInversionsWith M T) := by
  simp [mixInversionsWith]

theorem mixInversionsWith_monotone (M : Mixer α σ) (T : Nodes n α) :
    Monotone (mixInversionsWith M T) :=
  mixLoop_monotone M _ _ _ (mixInversionsWith_spec M T)

theorem mixInversionsWith_of_monotone (M : Mixer α σ) (T : Nodes n α) (h : Monotone T) :
    mixInversionsWith M T = T := by
  have h1 := sweepFrom_noop M n le_rfl T false ((sortedUpTo_iff_monotone T).mpr h)
  have h2 := mixInversionsWith_spec M T
  rw [mixLoop] at h2
  simp [sweep, h1] at h2
  exact h2.symm

/-! ### Exact arithmetic -/

/-- Extension of a node vector to all naturals (0 outside), for range sums. -/
def ext (T : Nodes n ℚ) (k : ℕ) : ℚ := if h : k < n + 1 then T ⟨k, h⟩ else 0

theorem ext_val (T : Nodes n ℚ) (k : Fin (n + 1)) : ext T k.val = T k := by
  simp [ext, k.isLt]

theorem ext_of_lt (T : Nodes n ℚ) {k : ℕ} (h : k < n + 1) : ext T k = T ⟨k, h⟩ := by
  simp [ext, h]

theorem sum_eq_ext (T : Nodes n ℚ) : ∑ k, T k = ∑ k ∈ Finset.range (n + 1), ext T k := by
  rw [← Fin.sum_univ_eq_sum_range]
  exact Finset.sum_congr rfl (fun k _ => (ext_val T k).symm)

/-- Closed form of the running mean when the scan stops. -/
theorem mixScan_exact (mass : ℚ) (T : Nodes n ℚ) (m : ℕ) (h : m ≤ n) (acc : ℚ × ℚ) :
    (mixScan (exactMixer mass) T m h acc).2 =
      (acc.1 + mass * ∑ k ∈ Finset.Ico (mixScan (exactMixer mass) T m h acc).1 (m + 1), ext T k) /
      (acc.2 + mass * (((m + 1 - (mixScan (exactMixer mass) T m h acc).1 : ℕ) : ℚ))) := by
  induction m generalizing acc with
  | zero =>
    simp [mixScan, exactMixer, ext]
    ring
  | succ m ih =>
    by_cases hc : T ⟨m, by omega⟩ <
        (exactMixer mass).mean ((exactMixer mass).push acc (T ⟨m + 1, by omega⟩))
    · have : mixScan (exactMixer mass) T (m + 1) h acc =
          (m + 1, (exactMixer mass).mean ((exactMixer mass).push acc (T ⟨m + 1, by omega⟩))) := by
        simp [mixScan, hc]
      rw [this]
      simp [exactMixer, ext, show m < n by omega]
      ring
    · have : mixScan (exactMixer mass) T (m + 1) h acc =
          mixScan (exactMixer mass) T m (by omega)
            ((exactMixer mass).push acc (T ⟨m + 1, by omega⟩)) := by
        simp [mixScan, hc]
      rw [this, ih (by omega)]
      have hle := (mixScan_spec (exactMixer mass) T m (by omega)
        ((exactMixer mass).push acc (T ⟨m + 1, by omega⟩))).1
      generalize mixScan (exactMixer mass) T m (by omega)
        ((exactMixer mass).push acc (T ⟨m + 1, by omega⟩)) = r at *
      rw [Finset.sum_Ico_succ_top (by omega : r.1 ≤ m + 1)]
      have e : m + 1 + 1 - r.1 = (m + 1 - r.1) + 1 := by omega
      rw [e]
      push_cast
      simp only [exactMixer, ext_of_lt T (show m + 1 < n + 1 by omega)]
      congr 1 <;> ring

theorem ext_assignRange (T : Nodes n ℚ) (m i : ℕ) (hi : i ≤ n) (v : ℚ) (k : ℕ) :
    ext (assignRange T m i v) k = if m ≤ k ∧ k ≤ i then v else ext T k := by
  by_cases hk : k < n + 1
  · simp [ext, hk, assignRange]
  · have : ¬ (m ≤ k ∧ k ≤ i) := by omega
    simp [ext, hk, this]

theorem sum_assignRange (T : Nodes n ℚ) (m i : ℕ) (hm : m ≤ i) (hi : i ≤ n) (v : ℚ) :
    ∑ k, assignRange T m i v k =
      ∑ k, T k - ∑ k ∈ Finset.Ico m (i + 1), ext T k + ((i + 1 - m : ℕ) : ℚ) * v := by
  rw [sum_eq_ext, sum_eq_ext]
  simp only [ext_assignRange T m i hi v]
  rw [← Finset.sum_range_add_sum_Ico _ (show i + 1 ≤ n + 1 by omega),
    ← Finset.sum_range_add_sum_Ico (ext T) (show i + 1 ≤ n + 1 by omega),
    ← Finset.sum_range_add_sum_Ico _ (show m ≤ i + 1 by omega),
    ← Finset.sum_range_add_sum_Ico (ext T) (show m ≤ i + 1 by omega)]
  have h1 : ∑ k ∈ Finset.range m, (if m ≤ k ∧ k ≤ i then v else ext T k) =
      ∑ k ∈ Finset.range m, ext T k :=
    Finset.sum_congr rfl (fun k hk => by
      have := Finset.mem_range.mp hk
      simp [show ¬ m ≤ k by omega])
  have h2 : ∑ k ∈ Finset.Ico m (i + 1), (if m ≤ k ∧ k ≤ i then v else ext T k) =
      ((i + 1 - m : ℕ) : ℚ) * v := by
    rw [Finset.sum_congr rfl (g := fun _ => v) (fun k hk => by
      have := Finset.mem_Ico.mp hk
      simp [this.1, show k ≤ i by omega])]
    simp
  have h3 : ∑ k ∈ Finset.Ico (i + 1) (n + 1), (if m ≤ k ∧ k ≤ i then v else ext T k) =
      ∑ k ∈ Finset.Ico (i + 1) (n + 1), ext T k :=
    Finset.sum_congr rfl (fun k hk => by
      have := Finset.mem_Ico.mp hk
      simp [show ¬ k ≤ i by omega])
  rw [h1, h2, h3]
  ring

/-- The mean assigned by one merge, in exact arithmetic. -/
theorem merge_mean (mass : ℚ) (hmass : mass ≠ 0) (T : Nodes n ℚ) (i : ℕ) (h : i ≤ n) :
    ((i + 1 - (mixScan (exactMixer mass) T i h (exactMixer mass).init).1 : ℕ) : ℚ) *
      (mixScan (exactMixer mass) T i h (exactMixer mass).init).2 =
    ∑ k ∈ Finset.Ico (mixScan (exactMixer mass) T i h (exactMixer mass).init).1 (i + 1),
      ext T k := by
  have h1 := mixScan_exact mass T i h (0, 0)
  have hle := (mixScan_spec (exactMixer mass) T i h (exactMixer mass).init).1
  change (mixScan (exactMixer mass) T i h (exactMixer mass).init).2 = _ at h1
  rw [h1]
  change ((i + 1 - (mixScan (exactMixer mass) T i h (exactMixer mass).init).1 : ℕ) : ℚ) *
    ((0 + mass * ∑ k ∈ Finset.Ico
      (mixScan (exactMixer mass) T i h (exactMixer mass).init).1 (i + 1), ext T k) /
    (0 + mass * ((i + 1 -
      (mixScan (exactMixer mass) T i h (exactMixer mass).init).1 : ℕ) : ℚ))) = _
  generalize hm : (mixScan (exactMixer mass) T i h (exactMixer mass).init).1 = m at *
  have : ((i + 1 - m : ℕ) : ℚ) ≠ 0 := by
    have : 0 < i + 1 - m := by omega
    positivity
  field_simp
  ring

theorem mixInversionsWith_sum (mass : ℚ) (hmass : mass ≠ 0) (T : Nodes n ℚ) :
    ∑ k, mixInversionsWith (exactMixer mass) T k = ∑ k, T k := by
  refine mixLoop_induct (exactMixer mass) (fun T' => ∑ k, T' k = ∑ k, T k) ?_ (n + 1) T _ rfl
    (mixInversionsWith_spec _ T)
  intro T' i h _ hT
  have hle := (mixScan_spec (exactMixer mass) T' (i + 1) h (exactMixer mass).init).1
  rw [sum_assignRange T' _ (i + 1) hle h, merge_mean mass hmass T' (i + 1) h, hT]
  ring

theorem mixInversionsWith_bounds (mass : ℚ) (hmass : mass ≠ 0) (T : Nodes n ℚ) (lo hi : ℚ)
    (hb : ∀ k, lo ≤ T k ∧ T k ≤ hi) (k : Fin (n + 1)) :
    lo ≤ mixInversionsWith (exactMixer mass) T k ∧
      mixInversionsWith (exactMixer mass) T k ≤ hi := by
  refine mixLoop_induct (exactMixer mass) (fun T' => ∀ k, lo ≤ T' k ∧ T' k ≤ hi) ?_ (n + 1) T _ hb
    (mixInversionsWith_spec _ T) k
  intro T' i h _ hT k
  have hle := (mixScan_spec (exactMixer mass) T' (i + 1) h (exactMixer mass).init).1
  have hmean := merge_mean mass hmass T' (i + 1) h
  generalize hr : mixScan (exactMixer mass) T' (i + 1) h (exactMixer mass).init = r at *
  obtain ⟨m, v⟩ := r
  simp only at hmean hle ⊢
  have hc : (0 : ℚ) < ((i + 1 + 1 - m : ℕ) : ℚ) := by
    have : 0 < i + 1 + 1 - m := by omega
    positivity
  have hcard : (Finset.Ico m (i + 1 + 1)).card = i + 1 + 1 - m := by simp
  have hlo : ((i + 1 + 1 - m : ℕ) : ℚ) * lo ≤ ∑ k ∈ Finset.Ico m (i + 1 + 1), ext T' k := by
    rw [← hcard, ← nsmul_eq_mul]
    refine Finset.card_nsmul_le_sum _ _ _ (fun k hk => ?_)
    have := Finset.mem_Ico.mp hk
    rw [ext_of_lt T' (show k < n + 1 by omega)]
    exact (hT _).1
  have hhi : ∑ k ∈ Finset.Ico m (i + 1 + 1), ext T' k ≤ ((i + 1 + 1 - m : ℕ) : ℚ) * hi := by
    rw [← hcard, ← nsmul_eq_mul]
    refine Finset.sum_le_card_nsmul _ _ _ (fun k hk => ?_)
    have := Finset.mem_Ico.mp hk
    rw [ext_of_lt T' (show k < n + 1 by omega)]
    exact (hT _).2
  simp only [assignRange]
  split
  · rw [← hmean] at hlo hhi
    exact ⟨le_of_mul_le_mul_left hlo hc, le_of_mul_le_mul_left hhi hc⟩
  · exact hT k

end HPWH
