import Verif.Lemmas.Draw
import Mathlib.Tactic.LinearCombination

/-! Helper lemmas about the draw loop, the heat exchanger, bottom mixing. -/

namespace HPWH

variable {n : ℕ}

namespace Tank

theorem numNodes_pos (t : Tank n) : 0 < t.numNodes := by unfold numNodes; positivity

/-- `mixInversions` only changes node temperatures. -/
theorem mixInversions_eq (t : Tank n) :
    t.mixInversions = { t with nodeTs := t.mixInversions.nodeTs } := by
  unfold mixInversions; split <;> rfl

theorem mixInversions_sum (t : Tank n) (hv : t.volume_L ≠ 0) :
    ∑ k, t.mixInversions.nodeTs k = ∑ k, t.nodeTs k := by
  unfold mixInversions
  split
  · have := t.numNodes_pos
    exact mixInversionsWith_sum _ (by
      have h2 : rhoWater ≠ 0 := by norm_num [rhoWater]
      positivity) t.nodeTs
  · rfl

theorem mixInversions_bounds (t : Tank n) (hv : t.volume_L ≠ 0) (lo hi : ℚ)
    (hb : ∀ k, lo ≤ t.nodeTs k ∧ t.nodeTs k ≤ hi) (k : Fin (n + 1)) :
    lo ≤ t.mixInversions.nodeTs k ∧ t.mixInversions.nodeTs k ≤ hi := by
  unfold mixInversions
  split
  · have := t.numNodes_pos
    exact mixInversionsWith_bounds _ (by
      have h2 : rhoWater ≠ 0 := by norm_num [rhoWater]
      positivity) t.nodeTs lo hi hb k
  · exact hb k

theorem drawIncrement_eq (t : Tank n) (s : Inlets) (inc : ℚ) :
    (drawIncrement t s inc).2 = { t with nodeTs := (drawIncrement t s inc).2.nodeTs } := by
  unfold drawIncrement
  simp only
  rw [mixInversions_eq]

theorem drawIncrement_sum (t : Tank n) (s : Inlets) (inc : ℚ) (hv : t.volume_L ≠ 0)
    (hcp : t.nodeCp ≠ 0) (hh : s.highNode ≤ n) (hl : s.lowNode ≤ n) :
    t.nodeCp * ∑ k, (drawIncrement t s inc).2.nodeTs k + (drawIncrement t s inc).1 =
      t.nodeCp * ∑ k, t.nodeTs k +
        t.nodeCp * inc * (s.highFrac * s.highT + s.lowFrac * s.lowT) := by
  unfold drawIncrement
  simp only
  rw [mixInversions_sum]
  · simp only [drawSweepFrom_sum, sum_update]
    unfold inletBelow
    simp only [hh, hl, if_true]
    field_simp
    ring
  · exact hv

theorem drawIncrement_bounds (t : Tank n) (s : Inlets) (inc lo hi : ℚ) (hv : t.volume_L ≠ 0)
    (hcp : t.nodeCp ≠ 0) (hinc0 : 0 ≤ inc) (hinc1 : inc ≤ 1)
    (hhn : s.highNode ≤ n) (hln : s.lowNode ≤ n)
    (hh : 0 ≤ s.highFrac) (hl : 0 ≤ s.lowFrac) (hsum : s.highFrac + s.lowFrac = 1)
    (hhT : lo ≤ s.highT ∧ s.highT ≤ hi) (hlT : lo ≤ s.lowT ∧ s.lowT ≤ hi)
    (hb : ∀ k, lo ≤ t.nodeTs k ∧ t.nodeTs k ≤ hi) (k : Fin (n + 1)) :
    lo ≤ (drawIncrement t s inc).2.nodeTs k ∧ (drawIncrement t s inc).2.nodeTs k ≤ hi := by
  unfold drawIncrement
  simp only
  apply mixInversions_bounds
  · exact hv
  · intro k
    have hf : fracAbove s n = 0 := by
      unfold fracAbove
      simp [Nat.not_lt.mpr hhn, Nat.not_lt.mpr hln]
    simp only
    rw [← hf]
    have hlast : ∀ k : Fin (n + 1), k.val ≠ n → k ≠ Fin.last n :=
      fun k hk hc => hk (by rw [hc]; rfl)
    have hq : t.nodeTs (Fin.last n) -
        t.nodeCp * inc * t.nodeTs (Fin.last n) / t.nodeCp =
        (1 - inc) * t.nodeTs (Fin.last n) := by
      field_simp
    constructor
    · apply drawSweepFrom_lower s inc lo hinc0 hinc1 hh hl hsum hhT.1 hlT.1
      · intro k hk
        rw [Function.update_of_ne (hlast k hk)]
        exact (hb k).1
      · rw [hf]
        change _ ≤ Function.update t.nodeTs (Fin.last n) _ (Fin.last n)
        rw [Function.update_self, hq]
        have := mul_le_mul_of_nonneg_left (hb (Fin.last n)).1 (show 0 ≤ 1 - inc by linarith)
        linarith
    · apply drawSweepFrom_upper s inc hi hinc0 hinc1 hh hl hsum hhT.2 hlT.2
      · intro k hk
        rw [Function.update_of_ne (hlast k hk)]
        exact (hb k).2
      · rw [hf]
        change Function.update t.nodeTs (Fin.last n) _ (Fin.last n) ≤ _
        rw [Function.update_self, hq]
        have := mul_le_mul_of_nonneg_left (hb (Fin.last n)).2 (show 0 ≤ 1 - inc by linarith)
        linarith

/-- Induction principle for the draw loop. -/
theorem drawLoop_induct (s : Inlets) (P : ℚ → ℚ → Tank n → Prop)
    (hstep : ∀ rem e t inc, 0 < rem → inc = (if rem > 1 then 1 else rem) → P rem e t →
      P (rem - inc) (e + (drawIncrement t s inc).1) (drawIncrement t s inc).2)
    (fuel : ℕ) (rem e : ℚ) (t : Tank n) (r : ℚ × Tank n) (h0 : 0 ≤ rem) (hP : P rem e t)
    (h : drawLoop s fuel rem e t = some r) : P 0 r.1 r.2 := by
  induction fuel generalizing rem e t with
  | zero =>
    rw [drawLoop] at h
    by_cases hr : rem > 0
    · simp [hr] at h
    · simp [hr] at h
      have : rem = 0 := le_antisymm (not_lt.mp hr) h0
      subst this
      rw [← h]; exact hP
  | succ fuel ih =>
    rw [drawLoop] at h
    by_cases hr : rem > 0
    · simp only [hr, if_true] at h
      refine ih _ _ _ ?_ ?_ h
      · split <;> linarith
      · exact hstep rem e t _ hr rfl hP
    · simp [hr] at h
      have : rem = 0 := le_antisymm (not_lt.mp hr) h0
      subst this
      rw [← h]; exact hP

theorem draw_induct (s : Inlets) (P : ℚ → ℚ → Tank n → Prop)
    (hstep : ∀ rem e t inc, 0 < rem → 0 < inc → inc ≤ 1 → inc ≤ rem → P rem e t →
      P (rem - inc) (e + (drawIncrement t s inc).1) (drawIncrement t s inc).2)
    (t : Tank n) (drawN : ℚ) (h0 : 0 ≤ drawN) (hP : P drawN 0 t) :
    P 0 (draw t s drawN).1 (draw t s drawN).2 := by
  refine drawLoop_induct s P ?_ ⌈drawN⌉₊ drawN 0 t _ h0 hP (by simp [draw])
  intro rem e t inc hr hinc h
  have h1 : 0 < inc ∧ inc ≤ 1 ∧ inc ≤ rem := by
    rw [hinc]
    split
    · exact ⟨by norm_num, le_refl _, by linarith⟩
    · exact ⟨hr, by linarith, le_refl _⟩
  exact hstep rem e t inc hr h1.1 h1.2.1 h1.2.2 h

theorem draw_spec (t : Tank n) (s : Inlets) (drawN : ℚ) (h0 : 0 ≤ drawN) (hv : t.volume_L ≠ 0)
    (hcp : t.nodeCp ≠ 0) (hh : s.highNode ≤ n) (hl : s.lowNode ≤ n) :
    (draw t s drawN).2 = { t with nodeTs := (draw t s drawN).2.nodeTs } ∧
    t.nodeCp * ∑ k, (draw t s drawN).2.nodeTs k + (draw t s drawN).1 =
      t.nodeCp * ∑ k, t.nodeTs k +
        t.nodeCp * drawN * (s.highFrac * s.highT + s.lowFrac * s.lowT) := by
  have := draw_induct s (fun rem e t' => t' = { t with nodeTs := t'.nodeTs } ∧
    t.nodeCp * ∑ k, t'.nodeTs k + e +
      t.nodeCp * rem * (s.highFrac * s.highT + s.lowFrac * s.lowT) =
      t.nodeCp * ∑ k, t.nodeTs k +
        t.nodeCp * drawN * (s.highFrac * s.highT + s.lowFrac * s.lowT)) ?_ t drawN h0
    ⟨rfl, by ring⟩
  · refine ⟨this.1, ?_⟩
    rw [← this.2]; ring
  · rintro rem e t' inc _ _ _ _ ⟨h1, h2⟩
    refine ⟨?_, ?_⟩
    · rw [drawIncrement_eq, h1]
    · have hcp' : t'.nodeCp = t.nodeCp := by rw [h1]
      have hv' : t'.volume_L = t.volume_L := by rw [h1]
      have h3 := drawIncrement_sum t' s inc (by rwa [hv']) (by rwa [hcp']) hh hl
      rw [hcp'] at h3
      rw [← h2]
      linear_combination h3

theorem draw_bounds (t : Tank n) (s : Inlets) (drawN lo hi : ℚ) (h0 : 0 ≤ drawN)
    (hv : t.volume_L ≠ 0) (hcp : 0 < t.nodeCp) (hhn : s.highNode ≤ n) (hln : s.lowNode ≤ n)
    (hh : 0 ≤ s.highFrac) (hl : 0 ≤ s.lowFrac) (hsum : s.highFrac + s.lowFrac = 1)
    (hhT : lo ≤ s.highT ∧ s.highT ≤ hi) (hlT : lo ≤ s.lowT ∧ s.lowT ≤ hi)
    (hb : ∀ k, lo ≤ t.nodeTs k ∧ t.nodeTs k ≤ hi) :
    (∀ k, lo ≤ (draw t s drawN).2.nodeTs k ∧ (draw t s drawN).2.nodeTs k ≤ hi) ∧
    t.nodeCp * drawN * lo ≤ (draw t s drawN).1 ∧ (draw t s drawN).1 ≤ t.nodeCp * drawN * hi := by
  have := draw_induct s (fun rem e t' => t'.nodeCp = t.nodeCp ∧ t'.volume_L = t.volume_L ∧
    (∀ k, lo ≤ t'.nodeTs k ∧ t'.nodeTs k ≤ hi) ∧
    t.nodeCp * (drawN - rem) * lo ≤ e ∧ e ≤ t.nodeCp * (drawN - rem) * hi) ?_ t drawN h0
    ⟨rfl, rfl, hb, by simp, by simp⟩
  · obtain ⟨_, _, h3, h4, h5⟩ := this
    refine ⟨h3, ?_, ?_⟩
    · simpa using h4
    · simpa using h5
  · rintro rem e t' inc _ hi0 hi1 _ ⟨h1, h2, h3, h4, h5⟩
    refine ⟨?_, ?_, ?_, ?_, ?_⟩
    · rw [drawIncrement_eq, h1]
    · rw [drawIncrement_eq, h2]
    · exact drawIncrement_bounds t' s inc lo hi (by rwa [h2]) (by rw [h1]; exact hcp.ne')
        hi0.le hi1 hhn hln hh hl hsum hhT hlT h3
    · have : (drawIncrement t' s inc).1 = t.nodeCp * inc * t'.nodeTs (Fin.last n) := by
        simp [drawIncrement, h1]
      rw [this]
      have := mul_le_mul_of_nonneg_left (h3 (Fin.last n)).1 (mul_pos hcp hi0).le
      linarith
    · have : (drawIncrement t' s inc).1 = t.nodeCp * inc * t'.nodeTs (Fin.last n) := by
        simp [drawIncrement, h1]
      rw [this]
      have := mul_le_mul_of_nonneg_left (h3 (Fin.last n)).2 (mul_pos hcp hi0).le
      linarith

/-! ### Heat exchanger -/

theorem hxLoop_sum (drawCp nodeCp eff : ℚ) (hd : drawCp ≠ 0) (hc : nodeCp ≠ 0) (k j : ℕ)
    (h : k + j = n + 1) (o : ℚ) (T : Nodes n ℚ) :
    drawCp * (hxLoop drawCp nodeCp eff k j h (o, T)).1 +
      nodeCp * ∑ i, (hxLoop drawCp nodeCp eff k j h (o, T)).2 i =
    drawCp * o + nodeCp * ∑ i, T i := by
  induction j generalizing k o T with
  | zero => rfl
  | succ j ih =>
    rw [hxLoop, ih]
    simp only [sum_update]
    field_simp
    ring

/-- Outlet temperature bounds; nodes not yet visited keep their temperature. -/
theorem hxLoop_outlet (drawCp nodeCp eff lo hi : ℚ) (hd : drawCp ≠ 0) (he0 : 0 ≤ eff)
    (he1 : eff ≤ 1) (k j : ℕ) (h : k + j = n + 1) (o : ℚ) (T : Nodes n ℚ)
    (ho : lo ≤ o ∧ o ≤ hi) (hT : ∀ i : Fin (n + 1), k ≤ i.val → lo ≤ T i ∧ T i ≤ hi) :
    lo ≤ (hxLoop drawCp nodeCp eff k j h (o, T)).1 ∧
      (hxLoop drawCp nodeCp eff k j h (o, T)).1 ≤ hi := by
  induction j generalizing k o T with
  | zero => exact ho
  | succ j ih =>
    rw [hxLoop]
    have hTk := hT ⟨k, by omega⟩ le_rfl
    have hq : o + eff * (drawCp * (T ⟨k, by omega⟩ - o)) / drawCp =
        (1 - eff) * o + eff * T ⟨k, by omega⟩ := by
      field_simp; ring
    apply ih
    · simp only [hq]
      constructor
      · nlinarith [mul_le_mul_of_nonneg_left ho.1 (show 0 ≤ 1 - eff by linarith),
          mul_le_mul_of_nonneg_left hTk.1 he0]
      · nlinarith [mul_le_mul_of_nonneg_left ho.2 (show 0 ≤ 1 - eff by linarith),
          mul_le_mul_of_nonneg_left hTk.2 he0]
    · intro i hi'
      rw [Function.update_of_ne (fun hc => by
        have := congrArg Fin.val hc
        simp at this
        omega)]
      exact hT i (by omega)

/-- Node bounds, when the water line cannot carry more than the node holds. -/
theorem hxLoop_nodes (drawCp nodeCp eff lo hi : ℚ) (hd : 0 < drawCp) (hc : 0 < nodeCp)
    (he0 : 0 ≤ eff) (he1 : eff ≤ 1) (hcap : eff * drawCp ≤ nodeCp) (k j : ℕ)
    (h : k + j = n + 1) (o : ℚ) (T : Nodes n ℚ) (ho : lo ≤ o ∧ o ≤ hi)
    (hT : ∀ i : Fin (n + 1), lo ≤ T i ∧ T i ≤ hi) (i : Fin (n + 1)) :
    lo ≤ (hxLoop drawCp nodeCp eff k j h (o, T)).2 i ∧
      (hxLoop drawCp nodeCp eff k j h (o, T)).2 i ≤ hi := by
  induction j generalizing k o T with
  | zero => exact hT i
  | succ j ih =>
    rw [hxLoop]
    have hTk := hT ⟨k, by omega⟩
    have hq : o + eff * (drawCp * (T ⟨k, by omega⟩ - o)) / drawCp =
        (1 - eff) * o + eff * T ⟨k, by omega⟩ := by
      field_simp; ring
    set c := eff * drawCp / nodeCp with hcdef
    have hc0 : 0 ≤ c := by positivity
    have hc1 : c ≤ 1 := by rw [hcdef, div_le_one hc]; exact hcap
    have hq2 : T ⟨k, by omega⟩ - eff * (drawCp * (T ⟨k, by omega⟩ - o)) / nodeCp =
        (1 - c) * T ⟨k, by omega⟩ + c * o := by
      rw [hcdef]; field_simp; ring
    apply ih
    · simp only [hq]
      constructor
      · nlinarith [mul_le_mul_of_nonneg_left ho.1 (show 0 ≤ 1 - eff by linarith),
          mul_le_mul_of_nonneg_left hTk.1 he0]
      · nlinarith [mul_le_mul_of_nonneg_left ho.2 (show 0 ≤ 1 - eff by linarith),
          mul_le_mul_of_nonneg_left hTk.2 he0]
    · intro i'
      by_cases hi' : i' = ⟨k, by omega⟩
      · subst hi'
        rw [Function.update_self, hq2]
        constructor
        · nlinarith [mul_le_mul_of_nonneg_left hTk.1 (show 0 ≤ 1 - c by linarith),
            mul_le_mul_of_nonneg_left ho.1 hc0]
        · nlinarith [mul_le_mul_of_nonneg_left hTk.2 (show 0 ≤ 1 - c by linarith),
            mul_le_mul_of_nonneg_left ho.2 hc0]
      · rw [Function.update_of_ne hi']
        exact hT i'

/-! ### Bottom mixing -/

theorem card_range_nodes (bottom below : ℕ) (hb : bottom ≤ below) (hn : below ≤ n + 1) :
    (∑ k : Fin (n + 1), if bottom ≤ k.val ∧ k.val < below then (1 : ℚ) else 0) =
      (below : ℚ) - bottom := by
  rw [Fin.sum_univ_eq_sum_range (fun k => if bottom ≤ k ∧ k < below then (1 : ℚ) else 0)]
  rw [← Finset.sum_filter]
  have : (Finset.range (n + 1)).filter (fun k => bottom ≤ k ∧ k < below) =
      Finset.Ico bottom below := by
    ext k; simp; omega
  rw [this]
  simp [Nat.cast_sub hb]

theorem mixNodes_sum (T T' : Nodes n ℚ) (bottom below : ℕ) (f : ℚ)
    (h : mixNodes T bottom below f = .ok T') : ∑ k, T' k = ∑ k, T k := by
  unfold mixNodes at h
  split at h
  · cases h; rfl
  · split at h
    · cases h
    · rename_i h1 h2
      cases h
      have hc := card_range_nodes (n := n) bottom below (by omega) (by omega)
      have hpos : (0 : ℚ) < (below : ℚ) - bottom := by
        have : (bottom : ℚ) < below := by exact_mod_cast (by omega : bottom < below)
        linarith
      have key : ∀ k : Fin (n + 1), (if bottom ≤ k.val ∧ k.val < below then
          T k + f * (mixAverage T bottom below - T k) else T k) =
          T k + f * mixAverage T bottom below *
            (if bottom ≤ k.val ∧ k.val < below then (1 : ℚ) else 0) -
          f * (if bottom ≤ k.val ∧ k.val < below then T k else 0) := by
        intro k
        split_ifs <;> ring
      simp only [key]
      rw [Finset.sum_sub_distrib, Finset.sum_add_distrib, ← Finset.mul_sum, ← Finset.mul_sum, hc]
      unfold mixAverage
      field_simp
      ring

theorem mixAverage_bounds (T : Nodes n ℚ) (bottom below : ℕ) (hb : bottom < below)
    (hn : below ≤ n + 1) (lo hi : ℚ) (hT : ∀ k, lo ≤ T k ∧ T k ≤ hi) :
    lo ≤ mixAverage T bottom below ∧ mixAverage T bottom below ≤ hi := by
  have hc := card_range_nodes (n := n) bottom below (by omega) (by omega)
  have hpos : (0 : ℚ) < (below : ℚ) - bottom := by
    have : (bottom : ℚ) < below := by exact_mod_cast hb
    linarith
  unfold mixAverage
  rw [le_div_iff₀ hpos, div_le_iff₀ hpos, ← hc, Finset.mul_sum, Finset.mul_sum]
  constructor
  · apply Finset.sum_le_sum
    intro k _
    split_ifs
    · simpa using (hT k).1
    · simp
  · apply Finset.sum_le_sum
    intro k _
    split_ifs
    · simpa using (hT k).2
    · simp

theorem mixNodes_bounds (T T' : Nodes n ℚ) (bottom below : ℕ) (f : ℚ) (hf0 : 0 ≤ f) (hf1 : f ≤ 1)
    (h : mixNodes T bottom below f = .ok T') (lo hi : ℚ) (hT : ∀ k, lo ≤ T k ∧ T k ≤ hi)
    (k : Fin (n + 1)) : lo ≤ T' k ∧ T' k ≤ hi := by
  unfold mixNodes at h
  split at h
  · cases h; exact hT k
  · split at h
    · cases h
    · rename_i h1 h2
      cases h
      have ha := mixAverage_bounds T bottom below (by omega) (by omega) lo hi hT
      have hk := hT k
      simp only
      split
      · constructor
        · nlinarith [mul_le_mul_of_nonneg_left ha.1 hf0,
            mul_le_mul_of_nonneg_left hk.1 (show 0 ≤ 1 - f by linarith)]
        · nlinarith [mul_le_mul_of_nonneg_left ha.2 hf0,
            mul_le_mul_of_nonneg_left hk.2 (show 0 ≤ 1 - f by linarith)]
      · exact hk

end Tank
end HPWH
