import Verif.Model.Tank
import Verif.Lemmas.Mix
import Mathlib.Tactic.NormNum
import Mathlib.Tactic.Linarith
import Mathlib.Tactic.GCongr

/-! Helper lemmas about draws. -/

namespace HPWH

variable {n : ℕ}

theorem sum_update (T : Nodes n ℚ) (i : Fin (n + 1)) (v : ℚ) :
    ∑ k, Function.update T i v k = ∑ k, T k - T i + v := by
  rw [Finset.sum_update_of_mem (Finset.mem_univ i),
    Finset.sum_eq_add_sum_sdiff_singleton_of_mem (Finset.mem_univ i) T]
  ring

namespace Tank

/-- The sum of the inlet contributions at nodes `≤ i`. -/
def inletBelow (s : Inlets) (i : ℕ) : ℚ :=
  (if s.highNode ≤ i then s.highFrac * s.highT else 0) +
  (if s.lowNode ≤ i then s.lowFrac * s.lowT else 0)

/-- The sum of the inlet contributions at node `i`. -/
def inletAt (s : Inlets) (i : ℕ) : ℚ :=
  (if i = s.highNode then s.highFrac * s.highT else 0) +
  (if i = s.lowNode then s.lowFrac * s.lowT else 0)

/-- The sum of inlet fractions at node `i`. -/
def fracAt (s : Inlets) (i : ℕ) : ℚ :=
  (if i = s.highNode then s.highFrac else 0) + (if i = s.lowNode then s.lowFrac else 0)

/-- The sum of inlet fractions at nodes `> i`. -/
def fracAbove (s : Inlets) (i : ℕ) : ℚ :=
  (if i < s.highNode then s.highFrac else 0) + (if i < s.lowNode then s.lowFrac else 0)

theorem addInlets_eq (s : Inlets) (inc : ℚ) (i : ℕ) (h : i < n + 1) (frac : ℚ) (T : Nodes n ℚ) :
    addInlets s inc i h frac T =
      (frac + fracAt s i, Function.update T ⟨i, h⟩ (T ⟨i, h⟩ + inc * inletAt s i)) := by
  unfold addInlets fracAt inletAt
  refine Prod.ext ?_ ?_
  · split_ifs <;> (simp; try ring)
  · split_ifs <;> simp
    all_goals (congr 1; ring)

theorem inletBelow_zero (s : Inlets) : inletBelow s 0 = inletAt s 0 := by
  unfold inletBelow inletAt
  simp [eq_comm]

theorem inletBelow_succ (s : Inlets) (i : ℕ) :
    inletBelow s (i + 1) = inletAt s (i + 1) + inletBelow s i := by
  unfold inletBelow inletAt
  split_ifs <;> first | (exfalso; omega) | ring

theorem fracAbove_pred (s : Inlets) (i : ℕ) :
    fracAbove s i = fracAbove s (i + 1) + fracAt s (i + 1) := by
  unfold fracAbove fracAt
  split_ifs <;> first | (exfalso; omega) | ring

/-- Heat bookkeeping of one sweep: only the inlets change the sum of the nodes. -/
theorem drawSweepFrom_sum (s : Inlets) (inc : ℚ) (i : ℕ) (h : i < n + 1) (frac : ℚ)
    (T : Nodes n ℚ) :
    ∑ k, drawSweepFrom s inc i h frac T k = ∑ k, T k + inc * inletBelow s i := by
  induction i generalizing frac T with
  | zero =>
    simp only [drawSweepFrom, addInlets_eq, sum_update, inletBelow_zero]
    ring
  | succ i ih =>
    simp only [drawSweepFrom, addInlets_eq]
    rw [ih]
    have hne1 : (⟨i, by omega⟩ : Fin (n + 1)) ≠ ⟨i + 1, h⟩ := by
      intro hc
      have := congrArg Fin.val hc
      simp at this
    simp only [sum_update, inletBelow_succ, Function.update_self, Function.update_of_ne hne1]
    ring

/-- Bounds of one sweep (lower bound).  Node `i` already gave its share upward. -/
theorem drawSweepFrom_lower (s : Inlets) (inc lo : ℚ) (hinc0 : 0 ≤ inc) (hinc1 : inc ≤ 1)
    (hh : 0 ≤ s.highFrac) (hl : 0 ≤ s.lowFrac) (hsum : s.highFrac + s.lowFrac = 1)
    (hhT : lo ≤ s.highT) (hlT : lo ≤ s.lowT) (i : ℕ) (h : i < n + 1) (T : Nodes n ℚ)
    (hne : ∀ k : Fin (n + 1), k.val ≠ i → lo ≤ T k)
    (hi : (1 - inc * (1 - fracAbove s i)) * lo ≤ T ⟨i, h⟩) :
    ∀ k, lo ≤ drawSweepFrom s inc i h (fracAbove s i) T k := by
  have hat : ∀ j, fracAt s j * lo ≤ inletAt s j := by
    intro j
    unfold fracAt inletAt
    rw [add_mul]
    apply add_le_add <;> split_ifs <;> first | gcongr | simp
  induction i generalizing T with
  | zero =>
    intro k
    simp only [drawSweepFrom, addInlets_eq]
    by_cases hk : k.val = 0
    · have : k = ⟨0, h⟩ := Fin.ext hk
      subst this
      rw [Function.update_self]
      have h1 : fracAbove s 0 + fracAt s 0 = 1 := by
        rw [← hsum]
        unfold fracAbove fracAt
        split_ifs <;> first | (exfalso; omega) | ring
      have h2 : inc * (fracAt s 0 * lo) ≤ inc * inletAt s 0 :=
        mul_le_mul_of_nonneg_left (hat 0) hinc0
      have h3 : fracAbove s 0 = 1 - fracAt s 0 := by linarith
      rw [h3] at hi
      nlinarith
    · rw [Function.update_of_ne (fun hc => hk (congrArg Fin.val hc))]
      exact hne k hk
  | succ i ih =>
    simp only [drawSweepFrom, addInlets_eq]
    rw [← fracAbove_pred]
    have hc0 : 0 ≤ fracAbove s i := by
      unfold fracAbove; split_ifs <;> linarith
    have hc1 : fracAbove s i ≤ 1 := by
      unfold fracAbove; split_ifs <;> linarith
    have hTi : lo ≤ T ⟨i, by omega⟩ := hne ⟨i, by omega⟩ (Nat.ne_of_lt (Nat.lt_succ_self i))
    have hne1 : (⟨i, by omega⟩ : Fin (n + 1)) ≠ ⟨i + 1, h⟩ := by
      intro hc
      have := congrArg Fin.val hc
      simp at this
    have hcoef : 0 ≤ inc * (1 - fracAbove s i) := mul_nonneg hinc0 (by linarith)
    have hcoef1 : inc * (1 - fracAbove s i) ≤ 1 := by
      calc inc * (1 - fracAbove s i) ≤ 1 * 1 := by gcongr; linarith
        _ = 1 := by ring
    apply ih
    · intro k hk
      rw [Function.update_of_ne (fun hc => hk (congrArg Fin.val hc))]
      by_cases hk1 : k.val = i + 1
      · have : k = ⟨i + 1, h⟩ := Fin.ext hk1
        subst this
        rw [Function.update_self, Function.update_self, Function.update_of_ne hne1]
        have h2 : inc * (fracAt s (i + 1) * lo) ≤ inc * inletAt s (i + 1) :=
          mul_le_mul_of_nonneg_left (hat (i + 1)) hinc0
        have h3 : fracAbove s (i + 1) = fracAbove s i - fracAt s (i + 1) := by
          rw [fracAbove_pred s i]; ring
        rw [h3] at hi
        have h4 : inc * (1 - fracAbove s i) * lo ≤ inc * (1 - fracAbove s i) * T ⟨i, by omega⟩ :=
          mul_le_mul_of_nonneg_left hTi hcoef
        linarith
      · rw [Function.update_of_ne (fun hc => hk1 (congrArg Fin.val hc)),
          Function.update_of_ne (fun hc => hk1 (congrArg Fin.val hc))]
        exact hne k hk1
    · rw [Function.update_self, Function.update_of_ne hne1, Function.update_of_ne hne1]
      have : (1 - inc * (1 - fracAbove s i)) * lo ≤
          (1 - inc * (1 - fracAbove s i)) * T ⟨i, by omega⟩ :=
        mul_le_mul_of_nonneg_left hTi (by linarith)
      linarith

/-- Negated inlets. -/
def Inlets.neg (s : Inlets) : Inlets := { s with highT := -s.highT, lowT := -s.lowT }

theorem fracAbove_neg (s : Inlets) (i : ℕ) : fracAbove s.neg i = fracAbove s i := rfl
theorem fracAt_neg (s : Inlets) (i : ℕ) : fracAt s.neg i = fracAt s i := rfl
theorem inletAt_neg (s : Inlets) (i : ℕ) : inletAt s.neg i = -inletAt s i := by
  unfold inletAt Inlets.neg
  split_ifs <;> ring

theorem neg_update (T : Nodes n ℚ) (i : Fin (n + 1)) (v : ℚ) :
    -(Function.update T i v) = Function.update (-T) i (-v) := by
  funext k
  by_cases h : k = i
  · subst h; simp
  · simp [Function.update_of_ne h]

/-- The sweep is odd in the temperatures. -/
theorem drawSweepFrom_neg (s : Inlets) (inc : ℚ) (i : ℕ) (h : i < n + 1) (frac : ℚ)
    (T : Nodes n ℚ) :
    drawSweepFrom s.neg inc i h frac (-T) = -(drawSweepFrom s inc i h frac T) := by
  induction i generalizing frac T with
  | zero =>
    simp only [drawSweepFrom, addInlets_eq, inletAt_neg, neg_update]
    congr 1
    simp
    ring
  | succ i ih =>
    simp only [drawSweepFrom, addInlets_eq, inletAt_neg, fracAt_neg]
    rw [← ih]
    congr 1
    simp only [neg_update]
    have hne1 : (⟨i, by omega⟩ : Fin (n + 1)) ≠ ⟨i + 1, h⟩ := by
      intro hc
      have := congrArg Fin.val hc
      simp at this
    simp only [Function.update_self, Function.update_of_ne hne1, Pi.neg_apply]
    congr 1
    · congr 1
      · congr 1; ring
      · ring
    · ring

/-- Bounds of one sweep (upper bound). -/
theorem drawSweepFrom_upper (s : Inlets) (inc hi : ℚ) (hinc0 : 0 ≤ inc) (hinc1 : inc ≤ 1)
    (hh : 0 ≤ s.highFrac) (hl : 0 ≤ s.lowFrac) (hsum : s.highFrac + s.lowFrac = 1)
    (hhT : s.highT ≤ hi) (hlT : s.lowT ≤ hi) (i : ℕ) (h : i < n + 1) (T : Nodes n ℚ)
    (hne : ∀ k : Fin (n + 1), k.val ≠ i → T k ≤ hi)
    (hi' : T ⟨i, h⟩ ≤ (1 - inc * (1 - fracAbove s i)) * hi) :
    ∀ k, drawSweepFrom s inc i h (fracAbove s i) T k ≤ hi := by
  intro k
  have := drawSweepFrom_lower s.neg inc (-hi) hinc0 hinc1 hh hl hsum
    (by simpa [Inlets.neg] using hhT) (by simpa [Inlets.neg] using hlT) i h (-T)
    (fun k hk => by simpa using hne k hk)
    (by rw [fracAbove_neg]; simp only [Pi.neg_apply]; linarith) k
  rw [fracAbove_neg, drawSweepFrom_neg] at this
  simpa using this

end Tank
end HPWH
