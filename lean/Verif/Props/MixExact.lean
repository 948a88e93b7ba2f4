import Verif.Props.Mix
import Mathlib.Order.Interval.Finset.Fin

/-! # C02: the result of inversion mixing is determined by what mixing may do -/

namespace HPWH

open Spec

variable {n : ℕ}

/-- What removing temperature inversions may do. The result is stratified; no heat is lost; heat only
moves upwards (below any height there is not more heat than before); and it only moves between nodes
that end up at the same temperature: across the boundary of a warmer node above a colder one no heat has
passed. -/
structure Spec.InversionsMixed (T T' : Nodes n ℚ) : Prop where
  stratified : Stratified T'
  conserved : ∑ k, T' k = ∑ k, T k
  upwards : ∀ j, ∑ k ∈ Finset.Iic j, T' k ≤ ∑ k ∈ Finset.Iic j, T k
  local' : ∀ i j : Fin (n + 1), j.val = i.val + 1 → T' i < T' j →
    ∑ k ∈ Finset.Iic i, T' k = ∑ k ∈ Finset.Iic i, T k

namespace MixExact

/-- Sum of the lowest `j` nodes. -/
def psum (T : Nodes n ℚ) (j : ℕ) : ℚ := ∑ k ∈ Finset.range j, ext T k

theorem psum_succ (T : Nodes n ℚ) (j : ℕ) : psum T (j + 1) = psum T j + ext T j :=
  Finset.sum_range_succ _ _

theorem sum_Iic (T : Nodes n ℚ) (j : Fin (n + 1)) :
    ∑ k ∈ Finset.Iic j, T k = psum T (j.val + 1) := by
  unfold psum
  refine Finset.sum_bij (fun k _ => k.val) (fun k hk => ?_) (fun a _ b _ h => Fin.ext h)
    (fun b hb => ?_) (fun k _ => (ext_val T k).symm)
  · have := Finset.mem_Iic.mp hk
    rw [Finset.mem_range]
    have h2 : k.val ≤ j.val := this
    omega
  · have hb' := Finset.mem_range.mp hb
    refine ⟨⟨b, by omega⟩, Finset.mem_Iic.mpr ?_, rfl⟩
    rw [Fin.le_def]
    exact Nat.lt_succ_iff.mp hb'

/-- `InversionsMixed` in terms of partial sums. -/
structure Mixed (T I : Nodes n ℚ) : Prop where
  mono : ∀ j, j + 1 < n + 1 → ext I j ≤ ext I (j + 1)
  total : psum I (n + 1) = psum T (n + 1)
  le : ∀ j, j ≤ n + 1 → psum I j ≤ psum T j
  eq : ∀ j, j + 1 < n + 1 → ext I j < ext I (j + 1) → psum I (j + 1) = psum T (j + 1)

theorem mono_iff (I : Nodes n ℚ) : (∀ j, j + 1 < n + 1 → ext I j ≤ ext I (j + 1)) ↔ Monotone I := by
  rw [Fin.monotone_iff_le_succ]
  constructor
  · intro h i
    have := h i.val (by omega)
    rwa [ext_of_lt I (by omega), ext_of_lt I (by omega)] at this
  · intro h j hj
    rw [ext_of_lt I (by omega), ext_of_lt I (by omega)]
    exact h ⟨j, by omega⟩

theorem mixed_iff (T I : Nodes n ℚ) : InversionsMixed T I ↔ Mixed T I := by
  constructor
  · intro h
    refine ⟨(mono_iff I).mpr ((stratified_iff_monotone I).mp h.stratified), ?_, fun j hj => ?_,
      fun j hj hlt => ?_⟩
    · have := h.conserved
      rwa [sum_eq_ext, sum_eq_ext] at this
    · cases j with
      | zero => simp [psum]
      | succ j =>
        have := h.upwards ⟨j, by omega⟩
        rwa [sum_Iic, sum_Iic] at this
    · have := h.local' ⟨j, by omega⟩ ⟨j + 1, hj⟩ rfl
        (by rwa [ext_of_lt I (by omega), ext_of_lt I hj] at hlt)
      rwa [sum_Iic, sum_Iic] at this
  · intro h
    refine ⟨(stratified_iff_monotone I).mpr ((mono_iff I).mp h.mono), ?_, fun j => ?_,
      fun i j hij hlt => ?_⟩
    · rw [sum_eq_ext, sum_eq_ext]; exact h.total
    · rw [sum_Iic, sum_Iic]; exact h.le _ (by omega)
    · rw [sum_Iic, sum_Iic]
      refine h.eq i.val (by omega) ?_
      rw [← hij, ext_val, ext_val]
      exact hlt

/-- There is only one such profile. -/
theorem Mixed.le_of {T I J : Nodes n ℚ} (hI : Mixed T I) (hJ : Mixed T J) :
    ∀ j, j ≤ n + 1 → psum I j ≤ psum J j := by
  by_contra hcon
  push Not at hcon
  obtain ⟨hj, hlt⟩ := Nat.find_spec hcon
  have hmin := fun m (h : m < Nat.find hcon) => Nat.find_min hcon h
  generalize Nat.find hcon = j at hj hlt hmin
  obtain ⟨i, rfl⟩ : ∃ i, j = i + 1 := by
    cases j with
    | zero => simp [psum] at hlt
    | succ i => exact ⟨i, rfl⟩
  have h0 : psum I i ≤ psum J i := by
    by_contra h
    exact hmin i (by omega) ⟨by omega, not_le.mp h⟩
  have key : ∀ k, i + k + 1 ≤ n + 1 → psum J (i + k + 1) < psum I (i + k + 1) ∧
      ext J (i + k) < ext I (i + k) := by
    intro k
    induction k with
    | zero =>
      intro _
      refine ⟨hlt, ?_⟩
      have a := psum_succ I i
      have b := psum_succ J i
      simp only [Nat.add_zero]
      linarith
    | succ k ih =>
      intro hk
      obtain ⟨h1, h2⟩ := ih (by omega)
      have hJflat : ¬ ext J (i + k) < ext J (i + k + 1) := fun h => by
        have := hJ.eq (i + k) (by omega) h
        have h3 := hI.le (i + k + 1) (by omega)
        linarith
      have hImono := hI.mono (i + k) (by omega)
      have e : ext J (i + k + 1) < ext I (i + k + 1) := by
        have := not_lt.mp hJflat
        linarith
      refine ⟨?_, e⟩
      have a := psum_succ I (i + k + 1)
      have b := psum_succ J (i + k + 1)
      have e2 : i + (k + 1) + 1 = i + k + 1 + 1 := by omega
      rw [e2]
      linarith
  have hlast := (key (n - i) (by omega)).1
  have e : i + (n - i) + 1 = n + 1 := by omega
  rw [e, hI.total, hJ.total] at hlast
  exact lt_irrefl _ hlast

theorem Mixed.unique {T I J : Nodes n ℚ} (hI : Mixed T I) (hJ : Mixed T J) : I = J := by
  have he : ∀ j, j ≤ n + 1 → psum I j = psum J j := fun j hj =>
    le_antisymm (hI.le_of hJ j hj) (hJ.le_of hI j hj)
  funext k
  have a := psum_succ I k.val
  have b := psum_succ J k.val
  rw [he _ (by omega), he _ (by omega), b, ext_val, ext_val] at a
  linarith

/-- Every upper part of a merged run is on average at most as warm as the run. -/
theorem scan_suffix (mass : ℚ) (hm : mass ≠ 0) (T : Nodes n ℚ) (m : ℕ) (h : m ≤ n) (S c : ℚ)
    (hc : 0 ≤ c) (p : ℕ) (hp : p ≤ m)
    (hp1 : (mixScan (exactMixer mass) T m h (S * mass, c * mass)).1 ≤ p) :
    S + ∑ k ∈ Finset.Ico p (m + 1), ext T k ≤
      (c + ((m : ℚ) + 1 - p)) * (mixScan (exactMixer mass) T m h (S * mass, c * mass)).2 := by
  induction m generalizing S c p with
  | zero =>
    obtain rfl : p = 0 := by omega
    have : (0 : ℚ) < c + 1 := by linarith
    simp only [mixScan, exactMixer]
    have e : S * mass + T ⟨0, by omega⟩ * mass = (S + T ⟨0, by omega⟩) * mass := by ring
    have e2 : c * mass + mass = (c + 1) * mass := by ring
    rw [e, e2, mul_div_mul_right _ _ hm]
    simp [ext_of_lt T (show 0 < n + 1 by omega)]
    field_simp
    exact le_rfl
  | succ m ih =>
    have hpush : (exactMixer mass).push (S * mass, c * mass) (T ⟨m + 1, by omega⟩) =
        ((S + T ⟨m + 1, by omega⟩) * mass, (c + 1) * mass) := by
      simp only [exactMixer]; congr 1 <;> ring
    have hc1 : (0 : ℚ) < c + 1 := by linarith
    have hmean : (exactMixer mass).mean ((S + T ⟨m + 1, by omega⟩) * mass, (c + 1) * mass) =
        (S + T ⟨m + 1, by omega⟩) / (c + 1) := by
      simp only [exactMixer]; rw [mul_div_mul_right _ _ hm]
    by_cases hlt : T ⟨m, by omega⟩ < (S + T ⟨m + 1, by omega⟩) / (c + 1)
    · have : mixScan (exactMixer mass) T (m + 1) h (S * mass, c * mass) =
          (m + 1, (S + T ⟨m + 1, by omega⟩) / (c + 1)) := by
        simp only [mixScan, hpush, hmean, hlt, if_true]
      rw [this] at hp1 ⊢
      obtain rfl : p = m + 1 := by simp only at hp1; omega
      simp only [Nat.Ico_succ_singleton, Finset.sum_singleton,
        ext_of_lt T (show m + 1 < n + 1 by omega)]
      push_cast
      field_simp
      linarith
    · have : mixScan (exactMixer mass) T (m + 1) h (S * mass, c * mass) =
          mixScan (exactMixer mass) T m (by omega)
            ((S + T ⟨m + 1, by omega⟩) * mass, (c + 1) * mass) := by
        simp only [mixScan, hpush, hmean, hlt, if_false]
      rw [this] at hp1 ⊢
      have hr := (mixScan_spec (exactMixer mass) T m (by omega)
        ((S + T ⟨m + 1, by omega⟩) * mass, (c + 1) * mass)).1
      have hT := ext_of_lt T (show m + 1 < n + 1 by omega)
      by_cases hpm : p ≤ m
      · have := ih (by omega) (S + T ⟨m + 1, by omega⟩) (c + 1) hc1.le p hpm hp1
        rw [Finset.sum_Ico_succ_top (by omega), hT]
        push_cast
        convert this using 1 <;> ring
      · obtain rfl : p = m + 1 := by omega
        have := ih (by omega) (S + T ⟨m + 1, by omega⟩) (c + 1) hc1.le m le_rfl hr
        simp only [Nat.Ico_succ_singleton, Finset.sum_singleton, hT,
          ext_of_lt T (show m < n + 1 by omega)] at this ⊢
        generalize (mixScan (exactMixer mass) T m (by omega)
          ((S + T ⟨m + 1, by omega⟩) * mass, (c + 1) * mass)).2 = v at *
        have h2 := not_lt.mp hlt
        rw [div_le_iff₀ hc1] at h2
        push_cast
        have h3 : (S + T ⟨m + 1, by omega⟩) * (c + 1 + 1) ≤ (c + 1) * v * (c + 1 + 1) := by
          nlinarith
        have := le_of_mul_le_mul_right h3 (by linarith)
        linarith

/-- One merge: a profile that mixing the merged nodes may lead to, mixing the original may lead to. -/
theorem Mixed.of_merge (mass : ℚ) (hm : mass ≠ 0) (T I : Nodes n ℚ) (i : ℕ) (h : i ≤ n)
    (hI : Mixed (assignRange T (mixScan (exactMixer mass) T i h (exactMixer mass).init).1 i
      (mixScan (exactMixer mass) T i h (exactMixer mass).init).2) I) : Mixed T I := by
  have hsuf := fun p hp hp1 => scan_suffix mass hm T i h 0 0 le_rfl p hp hp1
  have hinit : ((0 : ℚ) * mass, (0 : ℚ) * mass) = (exactMixer mass).init := by simp [exactMixer]
  rw [hinit] at hsuf
  have hle := (mixScan_spec (exactMixer mass) T i h (exactMixer mass).init).1
  have hmean := merge_mean mass hm T i h
  generalize mixScan (exactMixer mass) T i h (exactMixer mass).init = r at *
  obtain ⟨m, v⟩ := r
  simp only at hI hsuf hle hmean
  set T1 := assignRange T m i v with hT1
  have hext : ∀ k, ext T1 k = if m ≤ k ∧ k ≤ i then v else ext T k := ext_assignRange T m i h v
  have hlow : ∀ j, j ≤ m → psum T1 j = psum T j := fun j hj => by
    refine Finset.sum_congr rfl fun k hk => ?_
    have := Finset.mem_range.mp hk
    rw [hext, if_neg (by omega)]
  have hmid : ∀ j, m ≤ j → j ≤ i + 1 → psum T1 j = psum T m + ((j : ℚ) - m) * v := by
    intro j hj
    induction j, hj using Nat.le_induction with
    | base => intro _; rw [hlow m le_rfl]; ring
    | succ j hj ih =>
      intro hji
      rw [psum_succ, ih (by omega), hext, if_pos (by omega)]
      push_cast
      ring
  have hsplit : ∀ a b, a ≤ b → psum T b = psum T a + ∑ k ∈ Finset.Ico a b, ext T k := fun a b hab =>
    (Finset.sum_range_add_sum_Ico _ hab).symm
  have hcast : ((i + 1 - m : ℕ) : ℚ) = (i : ℚ) + 1 - m := by
    rw [Nat.cast_sub (by omega)]; push_cast; ring
  rw [hcast] at hmean
  have htop : psum T1 (i + 1) = psum T (i + 1) := by
    rw [hmid _ (by omega) le_rfl, hsplit m (i + 1) (by omega), ← hmean]
    push_cast; ring
  have hhigh : ∀ j, i + 1 ≤ j → psum T1 j = psum T j := by
    intro j hj
    induction j, hj using Nat.le_induction with
    | base => exact htop
    | succ j hj ih => rw [psum_succ, psum_succ, ih, hext, if_neg (by omega)]
  have hpre : ∀ j, psum T1 j ≤ psum T j := by
    intro j
    by_cases h1 : j ≤ m
    · exact (hlow j h1).le
    by_cases h2 : i + 1 ≤ j
    · exact (hhigh j h2).le
    have hs := hsuf j (by omega) (by omega)
    have h3 := hsplit j (i + 1) (by omega)
    rw [← htop, hmid _ (by omega) le_rfl] at h3
    rw [hmid j (by omega) (by omega)]
    push_cast at h3
    linarith
  refine ⟨hI.mono, ?_, fun j hj => (hI.le j hj).trans (hpre j), fun j hj hlt => ?_⟩
  · rw [hI.total]
    exact hhigh _ (by omega)
  · have e := hI.eq j hj hlt
    rw [e]
    by_cases h1 : j + 1 ≤ m
    · exact hlow _ h1
    by_cases h2 : i + 1 ≤ j + 1
    · exact hhigh _ h2
    exfalso
    have a := psum_succ I j
    have b := psum_succ I (j + 1)
    have a1 := psum_succ T1 j
    have b1 := psum_succ T1 (j + 1)
    rw [hext, if_pos (by omega)] at a1 b1
    have c := hI.le j (by omega)
    have d := hI.le (j + 1 + 1) (by omega)
    linarith

end MixExact

open MixExact

/-- C02: removing inversions gives exactly one profile: the stratified one that is reached by letting
heat rise only between nodes that end at the same temperature. -/
theorem C02_mixing_exact (t : Tank n) (hv : t.volume_L ≠ 0) (hmix : t.doInversionMixing)
    (T' : Nodes n ℚ) : InversionsMixed t.nodeTs T' ↔ T' = t.mixInversions.nodeTs := by
  have hm : t.volume_L / t.numNodes * rhoWater ≠ 0 := by
    have : t.numNodes ≠ 0 := by unfold Tank.numNodes; positivity
    have h2 : rhoWater ≠ 0 := by norm_num [rhoWater]
    positivity
  have hres : InversionsMixed t.nodeTs t.mixInversions.nodeTs := by
    rw [mixed_iff]
    simp only [Tank.mixInversions, hmix, if_true]
    set mass := t.volume_L / t.numNodes * rhoWater
    have := mixLoop_induct (exactMixer mass) (fun T1 => ∀ I, Mixed T1 I → Mixed t.nodeTs I)
      (fun T1 i h _ ih I hI => ih I (Mixed.of_merge mass hm T1 I (i + 1) h hI)) (n + 1) t.nodeTs _
      (fun I hI => hI) (mixInversionsWith_spec (exactMixer mass) t.nodeTs)
    refine this _ ⟨?_, rfl, fun _ _ => le_rfl, fun _ _ _ => rfl⟩
    exact (mono_iff _).mpr (mixInversionsWith_monotone _ _)
  constructor
  · intro h
    exact ((mixed_iff _ _).mp h).unique ((mixed_iff _ _).mp hres)
  · rintro rfl
    exact hres

/-- Three of the four nodes of a tank mix; the top stays. -/
example : ({ sampleTank with nodeTs := ![30, 50, 10, 60] } : Tank 3).mixInversions.nodeTs =
    ![30, 30, 30, 60] := by
  decide +kernel

end HPWH
