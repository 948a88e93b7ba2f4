import Mathlib.Order.Basic
import Mathlib.Order.Defs.LinearOrder
import Mathlib.Data.Rat.Defs
import Mathlib.Algebra.Order.Ring.Rat
import Mathlib.Tactic.Linarith
import Mathlib.Data.Fin.Basic

/-!
# Inversion mixing (src/Tank.cc:374-416)

The loop is modelled over an arbitrary linearly ordered type of temperatures and an
arbitrary way of accumulating and averaging (`Mixer`), so that nothing about it depends
on exact arithmetic.  `exactMixer` is the instance with exact rational arithmetic.
-/

namespace HPWH

/-- Temperatures of a tank with `n+1` nodes, node 0 at the bottom (src/Tank.hh:77-78,
`nodeTs_C`).  Simplification: a tank has at least one node. -/
abbrev Nodes (n : ℕ) (α : Type) := Fin (n + 1) → α

/-- The arithmetic used while merging nodes, src/Tank.cc:394-406: an accumulator
(`Tmixed`, `massMixed`), its initial value, adding one node, and the quotient
`Tmixed / massMixed`.  Arbitrary functions, to cover any rounding. -/
structure Mixer (α σ : Type) where
  init : σ
  push : σ → α → σ
  mean : σ → α

/-- The accumulator of src/Tank.cc:394-406 in exact arithmetic; `mass` is
`volumePerNode_L * DENSITYWATER_kgperL`. -/
def exactMixer (mass : ℚ) : Mixer ℚ (ℚ × ℚ) where
  init := (0, 0)
  push := fun acc t => (acc.1 + t * mass, acc.2 + mass)
  mean := fun acc => acc.1 / acc.2

variable {α σ : Type} [LinearOrder α] {n : ℕ}

/-- Inner `for (m = i; m >= 0; m--)` loop, src/Tank.cc:397-406: accumulate nodes downwards
from `m` until the bottom or until the running mean exceeds the next node below.
Returns the stopping index and the mean. -/
def mixScan (M : Mixer α σ) (T : Nodes n α) : (m : ℕ) → m ≤ n → σ → ℕ × α
  | 0, _, acc => (0, M.mean (M.push acc (T ⟨0, by omega⟩)))
  | m + 1, h, acc =>
    let acc' := M.push acc (T ⟨m + 1, by omega⟩)
    if T ⟨m, by omega⟩ < M.mean acc' then (m + 1, M.mean acc')
    else mixScan M T m (by omega) acc'

/-- `for (int k = i; k >= m; k--) nodeTs_C[k] = Tmixed;` src/Tank.cc:409-410. -/
def assignRange (T : Nodes n α) (m i : ℕ) (v : α) : Nodes n α :=
  fun k => if m ≤ k.val ∧ k.val ≤ i then v else T k

/-- The sweep `for (int i = getNumNodes() - 1; i > 0; i--)`, src/Tank.cc:385-412, from
index `i` downwards; the flag is `hasInversion`. -/
def sweepFrom (M : Mixer α σ) : (i : ℕ) → i ≤ n → Nodes n α × Bool → Nodes n α × Bool
  | 0, _, s => s
  | i + 1, h, (T, b) =>
    if T ⟨i + 1, by omega⟩ < T ⟨i, by omega⟩ then
      let r := mixScan M T (i + 1) h M.init
      sweepFrom M i (by omega) (assignRange T r.1 (i + 1) r.2, true)
    else sweepFrom M i (by omega) (T, b)

/-- One pass of the `do … while (hasInversion)` body, src/Tank.cc:383-412. -/
def sweep (M : Mixer α σ) (T : Nodes n α) : Nodes n α × Bool :=
  sweepFrom M n le_rfl (T, false)

/-- The loop `do … while (hasInversion)`, src/Tank.cc:381-414, limited to a number of
passes; `none` means the limit was reached with inversions still present. -/
def mixLoop (M : Mixer α σ) : ℕ → Nodes n α → Option (Nodes n α)
  | 0, _ => none
  | f + 1, T =>
    let s := sweep M T
    if s.2 then mixLoop M f s.1 else some s.1

/-! ### Termination: `n+1` passes always suffice -/

/-- The nodes `0..p` are in non-decreasing order. -/
def SortedUpTo (T : Nodes n α) (p : ℕ) : Prop :=
  ∀ k, (h : k < p) → (hn : p ≤ n) → T ⟨k, by omega⟩ ≤ T ⟨k + 1, by omega⟩

theorem mixScan_spec (M : Mixer α σ) (T : Nodes n α) (m : ℕ) (h : m ≤ n) (acc : σ) :
    (mixScan M T m h acc).1 ≤ m ∧
    ∀ k, (hk : k + 1 = (mixScan M T m h acc).1) →
      (hk' : k < n + 1) → T ⟨k, hk'⟩ < (mixScan M T m h acc).2 := by
  induction m generalizing acc with
  | zero => simp [mixScan]
  | succ m ih =>
    by_cases hc : T ⟨m, by omega⟩ < M.mean (M.push acc (T ⟨m + 1, by omega⟩))
    · have : mixScan M T (m + 1) h acc =
          (m + 1, M.mean (M.push acc (T ⟨m + 1, by omega⟩))) := by
        simp [mixScan, hc]
      rw [this]
      refine ⟨le_rfl, ?_⟩
      intro k hk hk'
      have : k = m := by simpa using hk
      subst this
      exact hc
    · have : mixScan M T (m + 1) h acc =
          mixScan M T m (by omega) (M.push acc (T ⟨m + 1, by omega⟩)) := by
        simp [mixScan, hc]
      rw [this]
      obtain ⟨h1, h2⟩ := ih (by omega) (M.push acc (T ⟨m + 1, by omega⟩))
      exact ⟨by omega, h2⟩

/-- Merging at `i` keeps a sorted prefix `0..p` with `p ≤ i-1` sorted, and if `p = i-1`
extends it to `0..i`. -/
theorem merge_sorted (M : Mixer α σ) (T : Nodes n α) (i p q : ℕ) (h : i + 1 ≤ n)
    (hp : p ≤ i) (hs : SortedUpTo T p) (hq : q ≤ i + 1)
    (hq' : q ≤ p ∨ p = i) :
    SortedUpTo (assignRange T (mixScan M T (i + 1) h M.init).1 (i + 1)
      (mixScan M T (i + 1) h M.init).2) q := by
  obtain ⟨h1, h2⟩ := mixScan_spec M T (i + 1) h M.init
  generalize hr : mixScan M T (i + 1) h M.init = r at *
  obtain ⟨m, v⟩ := r
  simp only at h1 h2
  intro k hk hn
  simp only [assignRange]
  have hTk : ∀ (hkp : k < p), T ⟨k, by omega⟩ ≤ T ⟨k + 1, by omega⟩ :=
    fun hkp => hs k hkp (by omega)
  by_cases hkm : m ≤ k
  · simp [hkm, show m ≤ k + 1 by omega, show k ≤ i + 1 by omega, show k ≤ i by omega]
  · by_cases hkm1 : m = k + 1
    · subst hkm1
      simp [show k ≤ i by omega]
      exact (h2 k rfl (by omega)).le
    · have : ¬ (m ≤ k + 1) := by omega
      simp only [hkm, this, false_and, if_false]
      apply hTk
      omega

theorem sweepFrom_sorted (M : Mixer α σ) (i : ℕ) (h : i ≤ n) (s : Nodes n α × Bool) (p : ℕ)
    (hp : p ≤ n) (hs : SortedUpTo s.1 p) :
    SortedUpTo (sweepFrom M i h s).1 p ∧
    (p < i → SortedUpTo (sweepFrom M i h s).1 (p + 1)) := by
  induction i generalizing s with
  | zero => simpa [sweepFrom] using hs
  | succ i ih =>
    obtain ⟨T, b⟩ := s
    simp only at hs
    by_cases hc : T ⟨i + 1, by omega⟩ < T ⟨i, by omega⟩
    · simp only [sweepFrom, hc, if_true]
      by_cases hpi : p ≤ i
      · have hs' := merge_sorted M T i p p h hpi hs (by omega) (Or.inl le_rfl)
        obtain ⟨a, b'⟩ := ih (by omega) (assignRange T (mixScan M T (i + 1) h M.init).1 (i + 1)
          (mixScan M T (i + 1) h M.init).2, true) hs'
        refine ⟨a, fun _ => ?_⟩
        by_cases hpi' : p = i
        · subst hpi'
          have hs'' := merge_sorted M T p p (p + 1) h le_rfl hs (by omega) (Or.inr rfl)
          have key : ∀ (j : ℕ) (hj : j ≤ n) (s : Nodes n α × Bool), j ≤ p →
              SortedUpTo s.1 (p + 1) → SortedUpTo (sweepFrom M j hj s).1 (p + 1) := by
            intro j
            induction j with
            | zero => intro hj s _ hs; simpa [sweepFrom] using hs
            | succ j ihj =>
              intro hj s hjp hs
              obtain ⟨T', b'⟩ := s
              have : ¬ (T' ⟨j + 1, by omega⟩ < T' ⟨j, by omega⟩) :=
                not_lt.mpr (hs j (by omega) (by omega))
              simp only [sweepFrom, this, if_false]
              exact ihj (by omega) (T', b') (by omega) hs
          exact key p (by omega) _ le_rfl hs''
        · exact b' (by omega)
      · -- p ≥ i+1: then no inversion at i
        exact absurd hc (not_lt.mpr (hs i (by omega) hp))
    · simp only [sweepFrom, hc, if_false]
      obtain ⟨a, b'⟩ := ih (by omega) (T, b) hs
      refine ⟨a, fun hpi => ?_⟩
      by_cases hpi' : p = i
      · subst hpi'
        have hs'' : SortedUpTo T (p + 1) := by
          intro k hk hn
          by_cases hkp : k < p
          · exact hs k hkp (by omega)
          · have : k = p := by omega
            subst this
            exact not_lt.mp hc
        have key : ∀ (j : ℕ) (hj : j ≤ n) (s : Nodes n α × Bool), j ≤ p →
              SortedUpTo s.1 (p + 1) → SortedUpTo (sweepFrom M j hj s).1 (p + 1) := by
            intro j
            induction j with
            | zero => intro hj s _ hs; simpa [sweepFrom] using hs
            | succ j ihj =>
              intro hj s hjp hs
              obtain ⟨T', b'⟩ := s
              have : ¬ (T' ⟨j + 1, by omega⟩ < T' ⟨j, by omega⟩) :=
                not_lt.mpr (hs j (by omega) (by omega))
              simp only [sweepFrom, this, if_false]
              exact ihj (by omega) (T', b') (by omega) hs
        exact key p (by omega) (T, b) le_rfl hs''
      · exact b' (by omega)

theorem sweepFrom_noop (M : Mixer α σ) (i : ℕ) (h : i ≤ n) (T : Nodes n α) (b : Bool)
    (hs : SortedUpTo T n) : sweepFrom M i h (T, b) = (T, b) := by
  induction i with
  | zero => rfl
  | succ i ih =>
    have : ¬ (T ⟨i + 1, by omega⟩ < T ⟨i, by omega⟩) := not_lt.mpr (hs i (by omega) le_rfl)
    simp only [sweepFrom, this, if_false]
    exact ih (by omega)

theorem mixLoop_isSome_aux (M : Mixer α σ) (k : ℕ) (T : Nodes n α) (hk : k ≤ n)
    (hs : SortedUpTo T (n - k)) : (mixLoop M (k + 1) T).isSome := by
  induction k generalizing T with
  | zero =>
    have := sweepFrom_noop M n le_rfl T false (by simpa using hs)
    simp [mixLoop, sweep, this]
  | succ k ih =>
    rw [mixLoop]
    by_cases hf : (sweep M T).2
    · simp only [hf, if_true]
      apply ih _ (by omega)
      have := (sweepFrom_sorted M n le_rfl (T, false) (n - (k + 1)) (by omega) hs).2 (by omega)
      have e : n - (k + 1) + 1 = n - k := by omega
      rw [e] at this
      exact this
    · simp [hf]

/-- At most `n+1` passes (one per node) are ever needed. -/
theorem mixLoop_isSome (M : Mixer α σ) (T : Nodes n α) : (mixLoop M (n + 1) T).isSome := by
  apply mixLoop_isSome_aux M n T le_rfl
  intro k hk
  omega

/-- `Tank::mixInversions` with `doInversionMixing` true, src/Tank.cc:374-416.  The pass limit
`n+1` is never reached (`mixLoop_isSome`), so this is the unbounded loop. -/
def mixInversionsWith (M : Mixer α σ) (T : Nodes n α) : Nodes n α :=
  (mixLoop M (n + 1) T).get (mixLoop_isSome M T)

end HPWH
