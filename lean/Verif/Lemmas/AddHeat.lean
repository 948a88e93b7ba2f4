import Verif.Lemmas.Losses

/-! Helper lemmas about adding heat above a node. -/

namespace HPWH
namespace Tank

variable {n : ℕ}

theorem setRun_sum (T : Nodes n ℚ) (node num : ℕ) (hn : node + num ≤ n + 1) (v w : ℚ)
    (hrun : ∀ k : Fin (n + 1), node ≤ k.val → k.val < node + num → T k = v) :
    ∑ k, setRun T node num w k = ∑ k, T k + num * (w - v) := by
  have hc := card_range_nodes (n := n) node (node + num) (by omega) hn
  have key : ∀ k, setRun T node num w k =
      T k + (w - v) * (if node ≤ k.val ∧ k.val < node + num then (1 : ℚ) else 0) := by
    intro k
    unfold setRun
    split_ifs with h
    · rw [hrun k h.1 h.2]; ring
    · ring
  simp only [key]
  rw [Finset.sum_add_distrib, ← Finset.mul_sum, hc]
  push_cast
  ring

theorem setRun_mono (T : Nodes n ℚ) (node num : ℕ) (v w : ℚ) (hm : Monotone T) (hvw : v ≤ w)
    (hrun : ∀ k : Fin (n + 1), node ≤ k.val → k.val < node + num → T k = v)
    (hnum : 0 < num) (hnode : node < n + 1)
    (hnext : ∀ k : Fin (n + 1), node + num ≤ k.val → w ≤ T k) : Monotone (setRun T node num w) := by
  intro i j hij
  have hij' : i.val ≤ j.val := hij
  have hv : T ⟨node, hnode⟩ = v := hrun ⟨node, hnode⟩ le_rfl (by simp; omega)
  unfold setRun
  by_cases hi : node ≤ i.val ∧ i.val < node + num
  · by_cases hj : node ≤ j.val ∧ j.val < node + num
    · simp [hi, hj]
    · simp only [hi, hj, and_self, if_true, if_false]
      exact hnext j (by omega)
  · by_cases hj : node ≤ j.val ∧ j.val < node + num
    · simp only [hi, hj, and_self, if_true, if_false]
      have : T i ≤ T ⟨node, hnode⟩ := hm (by rw [Fin.le_def]; simp; omega)
      linarith
    · simp only [hi, hj, if_false]
      exact hm hij

/-- The result required of adding `q` above `node` with cap `maxT`. -/
structure AddHeatSpec (cp maxT : ℚ) (node : Fin (n + 1)) (q : ℚ) (T : Nodes n ℚ) (q' : ℚ)
    (T' : Nodes n ℚ) : Prop where
  nonneg : 0 ≤ q'
  le : q' ≤ q
  energy : cp * ∑ k, T' k = cp * ∑ k, T k + (q - q')
  warmer : ∀ k, T k ≤ T' k
  cap : ∀ k, T' k = T k ∨ T' k ≤ maxT
  below : ∀ k, k < node → T' k = T k
  mono : Monotone T'
  full : 0 < q' → ∀ k, node ≤ k → maxT ≤ T' k
  level : ∃ L, ∀ k, node ≤ k → T' k = max (T k) L

/-- Above `node` a monotone tank is filled up to its own temperature there. -/
theorem level_self {T : Nodes n ℚ} (hm : Monotone T) (node : Fin (n + 1)) :
    ∃ L, ∀ k, node ≤ k → T k = max (T k) L :=
  ⟨T node, fun _ hk => (max_eq_left (hm hk)).symm⟩

theorem level_setRun {T : Nodes n ℚ} {node num : ℕ} {hnode : node < n + 1} {v w : ℚ} (hvw : v ≤ w)
    (hrun : ∀ k : Fin (n + 1), node ≤ k.val → k.val < node + num → T k = v)
    (hnext : ∀ k : Fin (n + 1), node + num ≤ k.val → w ≤ T k) {T' : Nodes n ℚ}
    (h : ∃ L, ∀ k, (⟨node, hnode⟩ : Fin (n + 1)) ≤ k → T' k = max (setRun T node num w k) L) :
    ∃ L, ∀ k, (⟨node, hnode⟩ : Fin (n + 1)) ≤ k → T' k = max (T k) L := by
  obtain ⟨L, hL⟩ := h
  refine ⟨max w L, fun k hk => ?_⟩
  have hk' : node ≤ k.val := hk
  rw [hL k hk, ← max_assoc]
  congr 1
  unfold setRun
  split_ifs with hc
  · rw [hrun k hc.1 hc.2, max_eq_right hvw]
  · rw [max_eq_left (hnext k (by omega))]

theorem addHeatLoop_spec (cp maxT : ℚ) (hcp : 0 < cp) (node : ℕ) (hnode : node < n + 1)
    (num room : ℕ) (h : node + num + room = n + 2) (q : ℚ) (T : Nodes n ℚ) (hq : 0 ≤ q)
    (hnum : 0 < num) (hm : Monotone T)
    (hinv : 0 < q → maxT ≤ T ⟨node, hnode⟩ ∨ (node + num ≤ n + 1 ∧
      ∀ k : Fin (n + 1), node ≤ k.val → k.val < node + num → T k = T ⟨node, hnode⟩)) :
    AddHeatSpec cp maxT ⟨node, hnode⟩ q T (addHeatLoop cp maxT node hnode num room h q T).1
      (addHeatLoop cp maxT node hnode num room h q T).2 := by
  induction room generalizing num q T with
  | zero =>
    rw [addHeatLoop]
    refine ⟨hq, le_rfl, by ring, fun _ => le_rfl, fun _ => Or.inl rfl, fun _ _ => rfl, hm, ?_, level_self hm _⟩
    intro hq' k hk
    rcases hinv hq' with h1 | ⟨h1, _⟩
    · exact h1.trans (hm hk)
    · omega
  | succ room ih =>
    rw [addHeatLoop]
    by_cases hq0 : q > 0
    swap
    · simp only [hq0, if_false]
      refine ⟨hq, le_rfl, by ring, fun _ => le_rfl, fun _ => Or.inl rfl, fun _ _ => rfl, hm, ?_, level_self hm _⟩
      intro hq'
      exact absurd hq' hq0
    simp only [hq0, if_true]
    -- the target temperature
    have hT : ∃ heatTo, heatTo = (if ht : node + num > n then maxT
        else if T ⟨node + num, by omega⟩ > maxT then maxT else T ⟨node + num, by omega⟩) ∧
        heatTo ≤ maxT ∧ (∀ k : Fin (n + 1), node + num ≤ k.val → heatTo ≤ T k) ∧
        (maxT ≤ heatTo ∨ ∃ hlt : node + num < n + 1, heatTo = T ⟨node + num, hlt⟩) := by
      refine ⟨_, rfl, ?_, ?_, ?_⟩
      · split_ifs with h1 h2
        · exact le_rfl
        · exact le_rfl
        · exact not_lt.mp h2
      · intro k hk
        have hk' := k.isLt
        split_ifs with h1 h2
        · omega
        · have : T ⟨node + num, by omega⟩ ≤ T k := hm (by rw [Fin.le_def]; exact hk)
          exact (le_of_lt h2).trans this
        · exact hm (by rw [Fin.le_def]; exact hk)
      · split_ifs with h1 h2
        · exact Or.inl le_rfl
        · exact Or.inl le_rfl
        · exact Or.inr ⟨by omega, rfl⟩
    obtain ⟨heatTo, hdef, hcap, hnext, hor⟩ := hT
    rw [← hdef]
    have hnumQ : (0 : ℚ) < num := by exact_mod_cast hnum
    have hnc : 0 < (num : ℚ) * cp := mul_pos hnumQ hcp
    set v := T ⟨node, hnode⟩ with hv
    by_cases c1 : (num : ℚ) * cp * (heatTo - v) > q
    · -- all the heat is used
      simp only [c1, if_true]
      have hlt : v < heatTo := by
        by_contra hge
        have : (num : ℚ) * cp * (heatTo - v) ≤ 0 :=
          mul_nonpos_of_nonneg_of_nonpos hnc.le (by linarith)
        linarith
      have hrun : node + num ≤ n + 1 ∧
          ∀ k : Fin (n + 1), node ≤ k.val → k.val < node + num → T k = v := by
        rcases hinv hq0 with h1 | h1
        · exfalso; linarith
        · exact h1
      set w := v + q / cp / num with hw
      have hw1 : v < w := by rw [hw]; have : 0 < q / cp / num := by positivity
                             linarith
      have hw2 : w < heatTo := by
        rw [hw]
        have : q / cp / num < heatTo - v := by
          rw [div_div, div_lt_iff₀ (by positivity)]
          linarith
        linarith
      have hmono : Monotone (setRun T node num w) :=
        setRun_mono T node num v w hm hw1.le hrun.2 hnum hnode
          (fun k hk => hw2.le.trans (hnext k hk))
      have hsum := setRun_sum T node num hrun.1 v w hrun.2
      have hih := ih (num + 1) (by omega) 0 (setRun T node num w) le_rfl (by omega) hmono
        (fun h => absurd h (lt_irrefl _))
      have e0 : (addHeatLoop cp maxT node hnode (num + 1) room (by omega) 0
          (setRun T node num w)).1 = 0 := le_antisymm hih.le hih.nonneg
      have e1 : cp * (num * (w - v)) = q := by
        rw [hw]
        field_simp
        ring
      refine ⟨hih.nonneg, hih.le.trans hq, ?_, ?_, ?_, ?_, hih.mono, ?_,
        level_setRun hw1.le hrun.2 (fun k hk => hw2.le.trans (hnext k hk)) hih.level⟩
      · rw [hih.energy, hsum, e0, mul_add, e1]
        ring
      · intro k
        refine le_trans ?_ (hih.warmer k)
        unfold setRun
        split_ifs with hk
        · rw [hrun.2 k hk.1 hk.2]; exact hw1.le
        · exact le_rfl
      · intro k
        rcases hih.cap k with h1 | h1
        · rw [h1]
          unfold setRun
          split_ifs with hk
          · exact Or.inr (hw2.le.trans hcap)
          · exact Or.inl rfl
        · exact Or.inr h1
      · intro k hk
        rw [hih.below k hk]
        unfold setRun
        have : ¬ node ≤ k.val := by
          have : k.val < node := hk
          omega
        simp [this]
      · intro h1
        rw [e0] at h1
        exact absurd h1 (lt_irrefl _)
    · simp only [c1, if_false]
      have hle : (num : ℚ) * cp * (heatTo - v) ≤ q := not_lt.mp c1
      by_cases c2 : (num : ℚ) * cp * (heatTo - v) > 0
      · simp only [c2, if_true]
        have hlt : v < heatTo := by
          by_contra hge
          have : (num : ℚ) * cp * (heatTo - v) ≤ 0 :=
            mul_nonpos_of_nonneg_of_nonpos hnc.le (by linarith)
          linarith
        have hrun : node + num ≤ n + 1 ∧
            ∀ k : Fin (n + 1), node ≤ k.val → k.val < node + num → T k = v := by
          rcases hinv hq0 with h1 | h1
          · exfalso; linarith
          · exact h1
        have hmono : Monotone (setRun T node num heatTo) :=
          setRun_mono T node num v heatTo hm hlt.le hrun.2 hnum hnode hnext
        have hsum := setRun_sum T node num hrun.1 v heatTo hrun.2
        have hnodeT : setRun T node num heatTo ⟨node, hnode⟩ = heatTo := by
          unfold setRun
          rw [if_pos ⟨le_rfl, by simp; omega⟩]
        have hih := ih (num + 1) (by omega) (q - (num : ℚ) * cp * (heatTo - v))
          (setRun T node num heatTo) (by linarith) (by omega) hmono (by
            intro _
            rw [hnodeT]
            rcases hor with h1 | ⟨hlt', h1⟩
            · exact Or.inl h1
            · refine Or.inr ⟨by omega, ?_⟩
              intro k hk1 hk2
              unfold setRun
              by_cases hk3 : k.val < node + num
              · rw [if_pos ⟨hk1, hk3⟩]
              · rw [if_neg (by omega), h1]
                congr 1
                apply Fin.ext
                simp only
                omega)
        refine ⟨hih.nonneg, hih.le.trans (by linarith), ?_, ?_, ?_, ?_, hih.mono, hih.full,
          level_setRun hlt.le hrun.2 hnext hih.level⟩
        · rw [hih.energy, hsum]
          ring
        · intro k
          refine le_trans ?_ (hih.warmer k)
          unfold setRun
          split_ifs with hk
          · rw [hrun.2 k hk.1 hk.2]; exact hlt.le
          · exact le_rfl
        · intro k
          rcases hih.cap k with h1 | h1
          · rw [h1]
            unfold setRun
            split_ifs with hk
            · exact Or.inr hcap
            · exact Or.inl rfl
          · exact Or.inr h1
        · intro k hk
          rw [hih.below k hk]
          unfold setRun
          have : ¬ node ≤ k.val := by
            have : k.val < node := hk
            omega
          simp [this]
      · simp only [c2, if_false]
        have hge : heatTo ≤ v := by
          by_contra hlt
          have : 0 < (num : ℚ) * cp * (heatTo - v) := mul_pos hnc (by linarith)
          exact c2 this
        apply ih (num + 1) (by omega) q T hq (by omega) hm
        intro _
        rcases hor with h1 | ⟨hlt', h1⟩
        · exact Or.inl (h1.trans hge)
        · rcases hinv hq0 with h2 | ⟨_, h2⟩
          · exact Or.inl h2
          · refine Or.inr ⟨by omega, ?_⟩
            intro k hk1 hk2
            by_cases hk3 : k.val < node + num
            · exact h2 k hk1 hk3
            · have hk4 : k = ⟨node + num, hlt'⟩ := Fin.ext (by simp only; omega)
              have h3 : v ≤ T k := hm (by rw [Fin.le_def]; exact hk1)
              rw [hk4] at h3 ⊢
              rw [← h1] at h3 ⊢
              exact le_antisymm hge h3

/-- `countEqual` counts a run of equal temperatures. -/
theorem countEqual_run (T : Nodes n ℚ) (i j : ℕ) (h : i + j = n) (num : ℕ) (v : ℚ)
    (hv : T ⟨i, by omega⟩ = v) :
    ∀ k : Fin (n + 1), i ≤ k.val → k.val + num < i + countEqual T i j h num + 1 → T k = v := by
  induction j generalizing i num with
  | zero =>
    intro k hk1 hk2
    rw [countEqual] at hk2
    have : k = ⟨i, by omega⟩ := Fin.ext (by simp only; omega)
    rw [this, hv]
  | succ j ih =>
    intro k hk1 hk2
    rw [countEqual] at hk2
    split at hk2
    · have : k = ⟨i, by omega⟩ := Fin.ext (by simp only; omega)
      rw [this, hv]
    · rename_i heq
      have heq' : T ⟨i, by omega⟩ = T ⟨i + 1, by omega⟩ := not_not.mp heq
      by_cases hki : k.val = i
      · have : k = ⟨i, by omega⟩ := Fin.ext hki
        rw [this, hv]
      · exact ih (i + 1) (by omega) (num + 1) (by rw [← heq', hv]) k (by omega) (by omega)

theorem addHeatAboveNode_spec (t : Tank n) (q : ℚ) (node : Fin (n + 1)) (maxT : ℚ)
    (hcp : 0 < t.nodeCp) (hm : Monotone t.nodeTs) (hq : 0 ≤ q) :
    (t.addHeatAboveNode q node maxT).2 =
      { t with nodeTs := (t.addHeatAboveNode q node maxT).2.nodeTs } ∧
    AddHeatSpec t.nodeCp maxT node q t.nodeTs (t.addHeatAboveNode q node maxT).1
      (t.addHeatAboveNode q node maxT).2.nodeTs := by
  refine ⟨rfl, ?_⟩
  unfold addHeatAboveNode
  have hb := countEqual_bounds t.nodeTs node.val (n - node.val) (by omega) 1
  have hr := countEqual_run t.nodeTs node.val (n - node.val) (by omega) 1 (t.nodeTs node) rfl
  apply addHeatLoop_spec t.nodeCp maxT hcp node.val node.isLt _ _ _ q t.nodeTs hq (by omega) hm
  intro _
  refine Or.inr ⟨by omega, ?_⟩
  intro k hk1 hk2
  exact hr k hk1 (by omega)

/-! ### Extra heat -/

structure AddExtraSpec (cp : ℚ) (node : Fin (n + 1)) (q : ℚ) (T : Nodes n ℚ) (T' : Nodes n ℚ) :
    Prop where
  energy : cp * ∑ k, T' k = cp * ∑ k, T k + q
  warmer : ∀ k, T k ≤ T' k
  below : ∀ k, k < node → T' k = T k
  mono : Monotone T'
  level : ∃ L, ∀ k, node ≤ k → T' k = max (T k) L

theorem addExtraLoop_spec (cp : ℚ) (hcp : 0 < cp) (node : ℕ) (hnode : node < n + 1)
    (num room : ℕ) (h : node + num + room = n + 2) (q : ℚ) (T : Nodes n ℚ) (hq : 0 ≤ q)
    (hnum : 0 < num) (hm : Monotone T)
    (hinv : 0 < q → (node + num ≤ n + 1 ∧
      ∀ k : Fin (n + 1), node ≤ k.val → k.val < node + num → T k = T ⟨node, hnode⟩)) :
    AddExtraSpec cp ⟨node, hnode⟩ q T (addExtraLoop cp node hnode num room h q T).2 := by
  induction room generalizing num q T with
  | zero =>
    rw [addExtraLoop]
    have : q = 0 := by
      by_contra hne
      have := (hinv (lt_of_le_of_ne hq (Ne.symm hne))).1
      omega
    subst this
    exact ⟨by ring, fun _ => le_rfl, fun _ _ => rfl, hm, level_self hm _⟩
  | succ room ih =>
    rw [addExtraLoop]
    by_cases hq0 : q > 0
    swap
    · simp only [hq0, if_false]
      have : q = 0 := le_antisymm (not_lt.mp hq0) hq
      subst this
      exact ⟨by ring, fun _ => le_rfl, fun _ _ => rfl, hm, level_self hm _⟩
    simp only [hq0, if_true]
    obtain ⟨hr1, hr2⟩ := hinv hq0
    have hnumQ : (0 : ℚ) < num := by exact_mod_cast hnum
    have hnc : 0 < cp * (num : ℚ) := mul_pos hcp hnumQ
    set v := T ⟨node, hnode⟩ with hv
    set w := v + q / cp / num with hw
    have hw1 : v < w := by rw [hw]; have : 0 < q / cp / num := by positivity
                           linarith
    have e1 : cp * (num * (w - v)) = q := by
      rw [hw]
      field_simp
      ring
    -- common facts about raising the run to some temperature
    have raise : ∀ u, v ≤ u → (∀ k : Fin (n + 1), node + num ≤ k.val → u ≤ T k) →
        ∀ q' T', 0 ≤ q' → q' = q - cp * (num * (u - v)) →
        AddExtraSpec cp ⟨node, hnode⟩ q' (setRun T node num u) T' →
        AddExtraSpec cp ⟨node, hnode⟩ q T T' := by
      intro u hvu hnext q' T' _ hq'' hs
      have hsum := setRun_sum T node num hr1 v u hr2
      refine ⟨?_, ?_, ?_, hs.mono, level_setRun hvu hr2 hnext hs.level⟩
      · rw [hs.energy, hsum, hq'']; ring
      · intro k
        refine le_trans ?_ (hs.warmer k)
        unfold setRun
        split_ifs with hk
        · rw [hr2 k hk.1 hk.2]; exact hvu
        · exact le_rfl
      · intro k hk
        rw [hs.below k hk]
        unfold setRun
        have : ¬ node ≤ k.val := by
          have : k.val < node := hk
          omega
        simp [this]
    by_cases ht : node + num > n
    · -- nothing above
      simp only [ht, dif_pos]
      have e2 : cp * (num : ℚ) * (w - v) = q := by rw [mul_assoc, e1]
      have c1 : ¬ cp * (num : ℚ) * (w - v) > q := by rw [e2]; exact lt_irrefl _
      have c2 : cp * (num : ℚ) * (w - v) > 0 := by rw [e2]; exact hq0
      simp only [c1, c2, if_true, if_false]
      have hnext : ∀ k : Fin (n + 1), node + num ≤ k.val → w ≤ T k := by
        intro k hk
        have := k.isLt
        omega
      have hmono := setRun_mono T node num v w hm hw1.le hr2 hnum hnode hnext
      rw [e2, sub_self]
      refine raise w hw1.le hnext 0 _ le_rfl (by rw [e1]; ring) ?_
      exact ih (num + 1) (by omega) 0 _ le_rfl (by omega) hmono (fun h => absurd h (lt_irrefl _))
    · simp only [ht, dif_neg, not_false_iff]
      have hlt' : node + num < n + 1 := by omega
      have hnx : ∀ k : Fin (n + 1), node + num ≤ k.val → T ⟨node + num, hlt'⟩ ≤ T k :=
        fun k hk => hm (by rw [Fin.le_def]; exact hk)
      have hvn : v ≤ T ⟨node + num, hlt'⟩ := hm (by rw [Fin.le_def]; simp)
      by_cases c1 : cp * (num : ℚ) * (T ⟨node + num, hlt'⟩ - v) > q
      · simp only [c1, if_true]
        have hw2 : w < T ⟨node + num, hlt'⟩ := by
          rw [hw]
          have : q / cp / num < T ⟨node + num, hlt'⟩ - v := by
            rw [div_div, div_lt_iff₀ (by positivity)]
            linarith
          linarith
        have hnext : ∀ k : Fin (n + 1), node + num ≤ k.val → w ≤ T k :=
          fun k hk => hw2.le.trans (hnx k hk)
        have hmono := setRun_mono T node num v w hm hw1.le hr2 hnum hnode hnext
        refine raise w hw1.le hnext 0 _ le_rfl (by rw [e1]; ring) ?_
        exact ih (num + 1) (by omega) 0 _ le_rfl (by omega) hmono (fun h => absurd h (lt_irrefl _))
      · simp only [c1, if_false]
        have hle := not_lt.mp c1
        by_cases c2 : cp * (num : ℚ) * (T ⟨node + num, hlt'⟩ - v) > 0
        · simp only [c2, if_true]
          have hmono := setRun_mono T node num v _ hm hvn hr2 hnum hnode hnx
          have hnodeT : setRun T node num (T ⟨node + num, hlt'⟩) ⟨node, hnode⟩ =
              T ⟨node + num, hlt'⟩ := by
            unfold setRun
            rw [if_pos ⟨le_rfl, by simp; omega⟩]
          refine raise _ hvn hnx (q - cp * (num : ℚ) * (T ⟨node + num, hlt'⟩ - v)) _
            (by linarith) (by ring) ?_
          refine ih (num + 1) (by omega) _ _ (by linarith) (by omega) hmono ?_
          intro _
          rw [hnodeT]
          refine ⟨by omega, ?_⟩
          intro k hk1 hk2
          unfold setRun
          by_cases hk3 : k.val < node + num
          · rw [if_pos ⟨hk1, hk3⟩]
          · rw [if_neg (by omega)]
            congr 1
            apply Fin.ext
            simp only
            omega
        · simp only [c2, if_false]
          have hge : T ⟨node + num, hlt'⟩ ≤ v := by
            by_contra hlt
            exact c2 (mul_pos hnc (by linarith))
          apply ih (num + 1) (by omega) q T hq (by omega) hm
          intro _
          refine ⟨by omega, ?_⟩
          intro k hk1 hk2
          by_cases hk3 : k.val < node + num
          · exact hr2 k hk1 hk3
          · have hk4 : k = ⟨node + num, hlt'⟩ := Fin.ext (by simp only; omega)
            rw [hk4]
            exact le_antisymm hge hvn

theorem addExtraHeatAboveNode_spec (t : Tank n) (q : ℚ) (node : Fin (n + 1))
    (hcp : 0 < t.nodeCp) (hm : Monotone t.nodeTs) (hq : 0 ≤ q) :
    t.addExtraHeatAboveNode q node =
      { t with nodeTs := (t.addExtraHeatAboveNode q node).nodeTs } ∧
    AddExtraSpec t.nodeCp node q t.nodeTs (t.addExtraHeatAboveNode q node).nodeTs := by
  refine ⟨rfl, ?_⟩
  unfold addExtraHeatAboveNode
  have hb := countEqual_bounds t.nodeTs node.val (n - node.val) (by omega) 1
  have hr := countEqual_run t.nodeTs node.val (n - node.val) (by omega) 1 (t.nodeTs node) rfl
  apply addExtraLoop_spec t.nodeCp hcp node.val node.isLt _ _ _ q t.nodeTs hq (by omega) hm
  intro _
  refine ⟨by omega, ?_⟩
  intro k hk1 hk2
  exact hr k hk1 (by omega)

end Tank
end HPWH
