import Verif.Lemmas.SinglePassSoC
import Verif.Props.SoC

/-! Helper lemmas: how much charge one pass of single-pass heating adds. -/

namespace HPWH

open Spec

variable {n k : ℕ}

theorem fractToMeetLoop_le (p : Plant n) : ∀ (ls : List Logic) (frac f : ℚ),
    SourceCfg.fractToMeetLoop p ls frac = .ok f → f ≤ frac ∧
      ∀ l ∈ ls, ∃ g, l.fractToMeet p = .ok g ∧ f ≤ g := by
  intro ls
  induction ls with
  | nil => intro frac f h; rw [← Except.ok.inj h]; exact ⟨le_rfl, fun l hl => absurd hl List.not_mem_nil⟩
  | cons l ls ih =>
    intro frac f h
    rw [SourceCfg.fractToMeetLoop, bind_ok_iff] at h
    obtain ⟨g, hg, h⟩ := h
    obtain ⟨h1, h2⟩ := ih _ f h
    have h3 : (if g < frac then g else frac) ≤ frac ∧ (if g < frac then g else frac) ≤ g := by
      split_ifs with hc
      · exact ⟨hc.le, le_rfl⟩
      · exact ⟨le_rfl, not_lt.mp hc⟩
    refine ⟨h1.trans h3.1, fun l' hl' => ?_⟩
    rcases List.mem_cons.mp hl' with e | e
    · subst e; exact ⟨g, hg, h1.trans h3.2⟩
    · exact h2 l' e

/-- Useful heat of one node. -/
def useful (mains minU t : ℚ) : ℚ := if minU ≤ t then t - mains else 0

theorem useful_nonneg {mains minU t : ℚ} (h : mains < minU) : 0 ≤ useful mains minU t := by
  unfold useful
  split_ifs <;> linarith

theorem useful_le {mains minU t x : ℚ} (h : mains < minU) (hx : minU ≤ x) (ht : t ≤ x) :
    useful mains minU t ≤ x - mains := by
  unfold useful
  split_ifs <;> linarith

theorem shiftNodes_le (T : Nodes n ℚ) (o : Fin (n + 1)) (f x : ℚ) (hf0 : 0 ≤ f) (hf1 : f ≤ 1)
    (hT : ∀ j, T j ≤ x) (j : Fin (n + 1)) : shiftNodes T o (Fin.last n) f x j ≤ x := by
  have h1 : 0 ≤ 1 - f := by linarith
  unfold shiftNodes
  split_ifs with h hj
  · nlinarith [hT j]
  · have h2 := hT j
    have h3 := hT ⟨j.val + 1, by
      have h2 : j.val ≠ n := fun hc => hj (Fin.ext hc)
      omega⟩
    nlinarith
  · exact hT j

/-- Useful heat after a pass that moves `f` of a node's volume, if the lowest useful node is `c`. -/
theorem useful_after (T : Nodes n ℚ) (o c : Fin (n + 1)) (mains minU x f e : ℚ) (hm : mains < minU)
    (hmono : Monotone T) (hT : ∀ j, T j ≤ x) (hf0 : 0 ≤ f) (hf1 : f ≤ 1)
    (hc : ∀ j, c ≤ j → minU ≤ T j) (hc' : ∀ j, j < c → T j < minU) (he0 : 0 ≤ e)
    (he : ∀ j : Fin (n + 1), j.val + 1 = c.val → useful mains minU (shiftNodes T o (Fin.last n) f x j) ≤ e) :
    ∑ j, useful mains minU (shiftNodes T o (Fin.last n) f x j) ≤
      ∑ j, useful mains minU (T j) + f * (x - T c) + e := by
  have h1f : 0 ≤ 1 - f := by linarith
  have key : ∀ j, useful mains minU (shiftNodes T o (Fin.last n) f x j) ≤
      useful mains minU (T j) + (shiftNodes T c (Fin.last n) f x j - T j) +
        (if j.val + 1 = c.val then e else 0) := by
    intro j
    by_cases hj : c ≤ j
    · have hne : ¬ (j.val + 1 = c.val) := by rw [Fin.le_def] at hj; omega
      rw [if_neg hne, add_zero]
      have hTj := hc j hj
      have up : T j ≤ shiftNodes T c (Fin.last n) f x j := by
        unfold shiftNodes
        rw [dif_pos ⟨hj, Fin.le_last _⟩]
        split_ifs with hl
        · nlinarith [hT j]
        · have := hmono (show j ≤ ⟨j.val + 1, by
            have h2 : j.val ≠ n := fun hc => hl (Fin.ext hc)
            omega⟩ from by rw [Fin.le_def]; simp)
          nlinarith
      have hle : shiftNodes T o (Fin.last n) f x j ≤ shiftNodes T c (Fin.last n) f x j := by
        by_cases ho : o ≤ j
        · apply le_of_eq
          have e1 : o ≤ j ∧ j ≤ Fin.last n := ⟨ho, Fin.le_last _⟩
          have e2 : c ≤ j ∧ j ≤ Fin.last n := ⟨hj, Fin.le_last _⟩
          simp only [shiftNodes, dif_pos e1, dif_pos e2]
        · have : shiftNodes T o (Fin.last n) f x j = T j := by
            unfold shiftNodes
            rw [dif_neg fun h => ho h.1]
          rw [this]; exact up
      unfold useful
      rw [if_pos hTj]
      split_ifs <;> linarith
    · have hj' := not_le.mp hj
      have hTj := hc' j hj'
      have e1 : shiftNodes T c (Fin.last n) f x j = T j := by
        unfold shiftNodes
        rw [dif_neg fun h => hj h.1]
      rw [e1, sub_self, add_zero]
      by_cases hn : j.val + 1 = c.val
      · rw [if_pos hn]
        have h1 := useful_nonneg (t := T j) hm
        have h2 := he j hn
        linarith
      · rw [if_neg hn, add_zero]
        have hlt : shiftNodes T o (Fin.last n) f x j < minU := by
          unfold shiftNodes
          split_ifs with h hl
          · exfalso
            rw [Fin.lt_def] at hj'
            have := c.isLt
            have h3 : j.val = n := by rw [hl]; rfl
            omega
          · have h3 := hc' ⟨j.val + 1, by
              have h2 : j.val ≠ n := fun hc => hl (Fin.ext hc)
              omega⟩ (by rw [Fin.lt_def] at hj' ⊢; simp only; omega)
            by_cases hf : f = 1
            · rw [hf]; linarith
            · have : 0 < 1 - f := lt_of_le_of_ne h1f fun h => hf (by linarith)
              nlinarith
          · exact hTj
        have : useful mains minU (shiftNodes T o (Fin.last n) f x j) = 0 := by
          unfold useful; rw [if_neg (not_le.mpr hlt)]
        rw [this]
        exact useful_nonneg hm
  refine (Finset.sum_le_sum fun j _ => key j).trans ?_
  rw [Finset.sum_add_distrib, Finset.sum_add_distrib, Finset.sum_sub_distrib,
    shiftNodes_sum T c (Fin.last n) (Fin.le_last _)]
  have hone : ∑ j : Fin (n + 1), (if j.val + 1 = c.val then e else 0) ≤ e := by
    by_cases h0 : c.val = 0
    · rw [Finset.sum_eq_zero fun j _ => if_neg (by omega)]
      exact he0
    · have : ∀ j : Fin (n + 1), (if j.val + 1 = c.val then e else 0) =
          if j = (⟨c.val - 1, by omega⟩ : Fin (n + 1)) then e else 0 := by
        intro j
        by_cases h : j.val + 1 = c.val
        · rw [if_pos h, if_pos (Fin.ext (by simp only; omega))]
        · rw [if_neg h, if_neg fun e => h (by rw [e]; simp only; omega)]
      rw [Finset.sum_congr rfl fun j _ => this j, Finset.sum_ite_eq' Finset.univ]
      simp
  linarith

/-- The same if no node is useful. -/
theorem useful_after_cold (T : Nodes n ℚ) (o : Fin (n + 1)) (mains minU x f : ℚ) (hm : mains < minU)
    (hx : minU ≤ x) (hT : ∀ j, T j ≤ x) (hf0 : 0 ≤ f) (hf1 : f ≤ 1) (hc : ∀ j, T j < minU) :
    ∑ j, useful mains minU (shiftNodes T o (Fin.last n) f x j) ≤ x - mains := by
  have h1f : 0 ≤ 1 - f := by linarith
  have key : ∀ j, useful mains minU (shiftNodes T o (Fin.last n) f x j) ≤
      if j = Fin.last n then x - mains else 0 := by
    intro j
    split_ifs with hl
    · exact useful_le hm hx (shiftNodes_le T o f x hf0 hf1 hT j)
    · have hlt : shiftNodes T o (Fin.last n) f x j < minU := by
        unfold shiftNodes
        split_ifs with h
        · have h3 := hc ⟨j.val + 1, by
            have h2 : j.val ≠ n := fun hc => hl (Fin.ext hc)
            omega⟩
          have h4 := hc j
          by_cases hf : f = 1
          · rw [hf]; linarith
          · have : 0 < 1 - f := lt_of_le_of_ne h1f fun h => hf (by linarith)
            nlinarith
        · exact hc j
      unfold useful; rw [if_neg (not_le.mpr hlt)]
  refine (Finset.sum_le_sum fun j _ => key j).trans ?_
  rw [Finset.sum_ite_eq' Finset.univ]
  simp

/-- The node below the lowest useful one after the pass. -/
theorem below_after (T : Nodes n ℚ) (o c : Fin (n + 1)) (mains minU x f : ℚ)
    (hmono : Monotone T) (j : Fin (n + 1)) (hj : j.val + 1 = c.val) (hTj : T j < minU) :
    useful mains minU (shiftNodes T o (Fin.last n) f x j) ≤ max 0 (T j + f * (T c - T j) - mains) := by
  have hjc : T j ≤ T c := hmono (by rw [Fin.le_def]; omega)
  by_cases ho : o ≤ j
  · have e : shiftNodes T o (Fin.last n) f x j = T j + f * (T c - T j) := by
      have h1 : o ≤ j ∧ j ≤ Fin.last n := ⟨ho, Fin.le_last _⟩
      have h2 : ¬ j = Fin.last n := fun h => by
        have := c.isLt
        rw [h] at hj
        simp at hj
        omega
      have h3 : (⟨j.val + 1, by have := c.isLt; omega⟩ : Fin (n + 1)) = c := Fin.ext hj
      simp only [shiftNodes, dif_pos h1, dif_neg h2, h3]
      ring
    rw [e]
    unfold useful
    split_ifs
    · exact le_max_right _ _
    · exact le_max_left _ _
  · have e : shiftNodes T o (Fin.last n) f x j = T j := by
      unfold shiftNodes
      rw [dif_neg fun h => ho h.1]
    rw [e]
    unfold useful
    rw [if_neg (not_le.mpr hTj)]
    exact le_max_left _ _

/-- A logic on the state of charge, in a plant that counts the charge in the same way and has an
up-to-date state of charge, asks for no more water than brings the charge to the limit and the next node
just above the useful temperature. -/
theorem soc_pass {l : Logic} {minU hyst constM lo : ℚ} {useC : Bool}
    (hk : l.kind = .soc minU hyst useC constM) (p : Plant n) (hus : l.Usable p)
    (hm : p.mainsT useC constM < minU) (hset : minU ≤ p.setpoint)
    (hone : 1 / ((n : ℚ) + 1) ≤ l.comparisonValue p) (hle : p.soc ≤ l.comparisonValue p)
    (hsoc : p.soc = stateOfCharge p.tank.nodeTs (p.mainsT useC constM) minU p.setpoint)
    (hmono : Monotone p.tank.nodeTs) (hT : ∀ j, p.tank.nodeTs j ≤ p.setpoint) (hlo : ∀ j, lo ≤ p.tank.nodeTs j)
    (o : Fin (n + 1))
    (f g : ℚ) (hg : l.fractToMeet p = .ok g) (hfg : f ≤ g) (hf0 : 0 ≤ f) (hf1 : f ≤ 1) :
    stateOfCharge (shiftNodes p.tank.nodeTs o (Fin.last n) f p.setpoint) (p.mainsT useC constM) minU
      p.setpoint ≤ l.comparisonValue p + tolMin +
        (minU - p.mainsT useC constM + tolMin * (p.setpoint - lo)) /
          (((n : ℚ) + 1) * (p.setpoint - p.mainsT useC constM)) := by
  set mains := p.mainsT useC constM with hmains
  set T := p.tank.nodeTs with hTdef
  set x := p.setpoint with hxdef
  have hN : (0 : ℚ) < (n : ℚ) + 1 := by positivity
  have hW : 0 < x - mains := by linarith
  have hNW : 0 < ((n : ℚ) + 1) * (x - mains) := by positivity
  have htol : (0 : ℚ) < tolMin := by norm_num [tolMin]
  have hv : l.tankValue p = .ok p.soc := by
    unfold Logic.tankValue
    unfold Logic.Usable at hus
    rw [hk] at hus
    simp only [hk]
    simp only at hus
    rw [if_neg]
    rintro ⟨h1, h2⟩
    rcases hus with h | h
    · rw [h1] at h; exact absurd h (by decide)
    · rw [h2] at h; exact absurd h (by decide)
  set delta := l.comparisonValue p + tolMin - p.soc with hdelta
  have hd0 : 0 < delta := by rw [hdelta]; linarith
  have hlox : 0 ≤ x - lo := by linarith [hlo 0, hT 0]
  set E := minU - mains + tolMin * (x - lo) with hE
  have hE0 : 0 ≤ E := by
    have := mul_nonneg htol.le hlox
    rw [hE]; linarith
  have hsocsum : p.soc * (((n : ℚ) + 1) * (x - mains)) = ∑ j, useful mains minU (T j) := by
    unfold stateOfCharge at hsoc
    change p.soc = (∑ j, useful mains minU (T j)) / _ at hsoc
    rw [hsoc, div_mul_cancel₀ _ hNW.ne']
  have hsum0 : 0 ≤ ∑ j, useful mains minU (T j) := Finset.sum_nonneg fun j _ => useful_nonneg hm
  -- in heat
  have goal : ∑ j, useful mains minU (shiftNodes T o (Fin.last n) f x j) ≤
      ∑ j, useful mains minU (T j) + delta * (((n : ℚ) + 1) * (x - mains)) + E := by
    obtain ⟨hl1, hl2, hl3⟩ := lastUseful_spec T minU (n + 1) le_rfl
    set m := Logic.lastUseful T minU (n + 1) le_rfl with hmdef
    have hbigW : delta ≥ 1 / ((n : ℚ) + 1) → x - mains ≤ delta * (((n : ℚ) + 1) * (x - mains)) := by
      intro hbig
      have h2 : 1 / ((n : ℚ) + 1) * (((n : ℚ) + 1) * (x - mains)) ≤
          delta * (((n : ℚ) + 1) * (x - mains)) := mul_le_mul_of_nonneg_right hbig hNW.le
      have h3 : 1 / ((n : ℚ) + 1) * (((n : ℚ) + 1) * (x - mains)) = x - mains := by
        field_simp
      linarith
    by_cases hnode : m < n + 1
    · have hc : ∀ j, (⟨m, hnode⟩ : Fin (n + 1)) ≤ j → minU ≤ T j := fun j hj =>
        hl2 j j.isLt hj
      have hc' : ∀ j, j < (⟨m, hnode⟩ : Fin (n + 1)) → T j < minU := fun j hj => by
        rw [Fin.lt_def] at hj
        simp only at hj
        have hpos : 0 < m := by omega
        refine lt_of_le_of_lt (hmono ?_) (hl3 hpos (by omega))
        rw [Fin.le_def]; simp only; omega
      have hTm : minU ≤ T ⟨m, hnode⟩ := hc _ le_rfl
      have hxc : 0 ≤ x - T ⟨m, hnode⟩ := sub_nonneg.mpr (hT _)
      by_cases hbig : delta ≥ 1 / ((n : ℚ) + 1)
      · have h1f : 0 ≤ 1 - f := by linarith
        have hfx : 0 ≤ x - mains - f * (x - T ⟨m, hnode⟩) := by nlinarith
        have h := useful_after T o ⟨m, hnode⟩ mains minU x f (x - mains - f * (x - T ⟨m, hnode⟩)) hm hmono hT hf0 hf1
          hc hc' hfx fun j hj => by
            have hTj := hc' j (by rw [Fin.lt_def]; simp only at hj ⊢; omega)
            refine (below_after T o ⟨m, hnode⟩ mains minU x f hmono j hj hTj).trans (max_le hfx ?_)
            nlinarith [hT j]
        linarith [hbigW hbig]
      · have hne : minU - mains ≠ 0 := by intro h0; linarith
        unfold Logic.fractToMeet at hg
        simp only [hk, Logic.socFract, hv] at hg
        rw [if_neg hbig, dif_pos hnode] at hg
        have hch : chargePerNode mains minU x = .ok ((x - mains) / (minU - mains)) := by
          unfold chargePerNode
          rw [if_neg (not_lt.mpr hset), if_neg hne]
        simp only [← hmains, ← hxdef, ← hTdef, hch, if_neg hne, ← hmdef] at hg
        have hcalc : f * (x - T ⟨m, hnode⟩) ≤ delta * (((n : ℚ) + 1) * (x - mains)) := by
          by_cases hge : T ⟨m, hnode⟩ ≥ x
          · have : x - T ⟨m, hnode⟩ = 0 := by linarith
            rw [this, mul_zero]
            positivity
          · have hpos : 0 < x - T ⟨m, hnode⟩ := by linarith [not_le.mp hge]
            have hgle : g ≤ delta * (((n : ℚ) + 1) * (x - mains)) / (x - T ⟨m, hnode⟩) := by
              have e : (delta * (((n : ℚ) + 1) * ((x - mains) / (minU - mains))) +
                  (T ⟨m, hnode⟩ - mains) / (minU - mains)) * (minU - mains) + mains - T ⟨m, hnode⟩ =
                  delta * (((n : ℚ) + 1) * (x - mains)) := by
                field_simp
                ring
              rw [if_neg hge] at hg
              split_ifs at hg with h0 h1
              · rw [← Except.ok.inj hg, e]
              · rw [← Except.ok.inj hg, e]
                exact min_le_left _ _
            have := hfg.trans hgle
            rwa [le_div_iff₀ hpos] at this
        have h := useful_after T o ⟨m, hnode⟩ mains minU x f E hm hmono hT hf0 hf1 hc hc' hE0 fun j hj => by
          simp only at hj
          have hTj := hc' j (by rw [Fin.lt_def]; simp only; omega)
          refine (below_after T o ⟨m, hnode⟩ mains minU x f hmono j hj hTj).trans (max_le hE0 ?_)
          have hm0 : ¬ m = 0 := by omega
          have hj' : (⟨m - 1, by omega⟩ : Fin (n + 1)) = j := Fin.ext (by simp only; omega)
          rw [dif_neg hm0] at hg
          simp only [hj'] at hg
          have hd : 0 < T ⟨m, hnode⟩ - T j := by linarith
          rw [if_neg hd.ne'] at hg
          have hgn : f ≤ (minU - T j) / (T ⟨m, hnode⟩ - T j) + tolMin := by
            refine hfg.trans ?_
            rw [← Except.ok.inj hg]
            exact min_le_right _ _
          have h1 : f * (T ⟨m, hnode⟩ - T j) ≤
              ((minU - T j) / (T ⟨m, hnode⟩ - T j) + tolMin) * (T ⟨m, hnode⟩ - T j) :=
            mul_le_mul_of_nonneg_right hgn hd.le
          rw [add_mul, div_mul_cancel₀ _ hd.ne'] at h1
          have h2 : tolMin * (T ⟨m, hnode⟩ - T j) ≤ tolMin * (x - lo) :=
            mul_le_mul_of_nonneg_left (by linarith [hT ⟨m, hnode⟩, hlo j]) htol.le
          rw [hE]
          linarith
        linarith
    · have hcold : ∀ j, T j < minU := fun j => by
        have hpos : 0 < m := by omega
        refine lt_of_le_of_lt (hmono ?_) (hl3 hpos (by omega))
        rw [Fin.le_def]; simp only
        have := j.isLt
        omega
      have h := useful_after_cold T o mains minU x f hm hset hT hf0 hf1 hcold
      have hz : ∑ j, useful mains minU (T j) = 0 := Finset.sum_eq_zero fun j _ => by
        unfold useful; rw [if_neg (not_le.mpr (hcold j))]
      have hsz : p.soc = 0 := by
        rw [hz] at hsocsum
        exact (mul_eq_zero.mp hsocsum).resolve_right hNW.ne'
      have := hbigW (by rw [hdelta, hsz]; linarith)
      linarith
  unfold stateOfCharge
  change (∑ j, useful mains minU (shiftNodes T o (Fin.last n) f x j)) / _ ≤ _
  rw [div_le_iff₀ hNW, add_mul, div_mul_cancel₀ _ hNW.ne']
  refine goal.trans ?_
  rw [← hsocsum, hdelta]
  linarith

/-- What is known of one single pass that was made. -/
theorem spPass_some (s : SourceCfg n k) (c : CondCfg) (externalT : ℚ) (a b : ExtState n)
    (h : spPass s c externalT a = .ok (some b)) :
    ∃ perf f frac time rem', c.getPerformance s.airflowFreedom a.plant.setpoint externalT
        (a.plant.tank.nodeTs s.externalOutlet) = .ok perf ∧
      a.plant.tank.nodeTs s.externalOutlet < min c.maxSetpoint a.plant.setpoint ∧
      s.fractToMeet a.plant = .ok f ∧ frac ≤ f ∧
      (0 < a.plant.tank.nodeCp → frac ≤ 1) ∧
      (0 ≤ f → 0 ≤ perf.outputPower_W → 0 ≤ a.remaining → 0 < a.plant.tank.nodeCp → 0 ≤ frac) ∧
      extFinishPass s c a.plant a.net perf frac (min c.maxSetpoint a.plant.setpoint) time rem' =
        .ok b := by
  unfold spPass at h
  rw [bind_ok_iff] at h
  obtain ⟨perf, hp, h⟩ := h
  dsimp only at h
  by_cases hd : min c.maxSetpoint a.plant.setpoint - a.plant.tank.nodeTs s.externalOutlet ≤ 0
  · rw [if_pos hd] at h
    exact absurd (Except.ok.inj h) (by simp)
  rw [if_neg hd, bind_ok_iff] at h
  obtain ⟨f, hf, h⟩ := h
  obtain ⟨-, h⟩ := ite_error_ok h
  rw [bind_ok_iff] at h
  obtain ⟨r, hr, h⟩ := h
  have : r = b := Option.some.inj (Except.ok.inj h)
  subst this
  refine ⟨perf, f, _, _, _, hp, by linarith [not_le.mp hd], hf, ?_, ?_, ?_, hr⟩
  · split_ifs with h1 h2 h3
    · exact le_rfl
    · exact not_lt.mp h2
    · exact le_rfl
    · exact not_lt.mp h3
  · intro hcp
    have hnh : 0 < a.plant.tank.nodeCp *
        (min c.maxSetpoint a.plant.setpoint - a.plant.tank.nodeTs s.externalOutlet) :=
      mul_pos hcp (not_le.mp hd)
    split_ifs with h1 h2 h3
    · exact h2.le.trans ((div_le_one hnh).mpr h1.le)
    · exact (div_le_one hnh).mpr h1.le
    · exact h3.le
    · exact le_rfl
  · intro hf0 ho hr0 hcp
    have hcap : 0 ≤ Units.W_TO_KW perf.outputPower_W * (a.remaining * Units.secPerMin) := by
      unfold Units.W_TO_KW Units.secPerMin; positivity
    have hnh : 0 ≤ a.plant.tank.nodeCp *
        (min c.maxSetpoint a.plant.setpoint - a.plant.tank.nodeTs s.externalOutlet) :=
      mul_nonneg hcp.le (not_le.mp hd).le
    split_ifs
    · exact hf0
    · exact div_nonneg hcap hnh
    · exact hf0
    · exact zero_le_one

/-- What is known of a tank that single-pass heating from the top returns. -/
structure Charged (limit : ℚ) (q : Plant n) : Prop where
  fresh : Fresh q
  mono : Monotone q.tank.nodeTs
  le : ∀ j, q.tank.nodeTs j ≤ q.setpoint
  soc : q.soc ≤ limit

/-- The charge of an up-to-date plant. -/
theorem Fresh.charge {p : Plant n} {minU constM : ℚ} {useC : Bool} (hf : Fresh p)
    (hc : p.socControl = some ⟨minU, useC, constM⟩) (h1 : p.mainsT useC constM < minU)
    (h2 : minU ≤ p.setpoint) :
    p.soc = stateOfCharge p.tank.nodeTs (p.mainsT useC constM) minU p.setpoint := by
  have h := Fresh.soc hc hf
  rw [C38_state_of_charge _ _ _ _ h1 h2] at h
  exact (Except.ok.inj h).symm

theorem soc_not_above {s : SourceCfg n k} {q : Plant n} {l : Logic} (hl : l ∈ s.shutOff)
    (hlim : l.SoCLimit q) (hus : l.Usable q) (hoff : s.shutsOff q = .ok false) :
    q.soc ≤ l.comparisonValue q := by
  obtain ⟨hcmp, minU, hyst, useC, constM, hk, -⟩ := hlim
  by_contra hc
  refine (shutsOff_false s q hoff).2 l hl ?_
  have hv : l.tankValue q = .ok q.soc := by
    unfold Logic.tankValue
    unfold Logic.Usable at hus
    rw [hk] at hus
    simp only [hk]
    simp only at hus
    rw [if_neg]
    rintro ⟨h1, h2⟩
    rcases hus with h | h
    · rw [h1] at h; exact absurd h (by decide)
    · rw [h2] at h; exact absurd h (by decide)
  unfold Logic.holds
  rw [hv, hcmp]
  simp only [Cmp.test, decide_eq_true (not_le.mp hc)]

/-- One single pass to the top node under a limit of charge. -/
theorem spPass_charge (s : SourceCfg n k) (c : CondCfg) (externalT period : ℚ) (p : Plant n)
    (ht : p.tank.Consistent) (htop : s.externalInlet = Fin.last n) (hmax : p.setpoint ≤ c.maxSetpoint)
    (hperf : ∀ w perf, p.MayDraw c w →
      c.getPerformance s.airflowFreedom p.setpoint externalT w = .ok perf → 0 < perf.outputPower_W)
    (hsoc : p.SoCUsable) (habove : ∀ l ∈ s.shutOff, l.ShutsOffAbove p) (l : Logic) (hl : l ∈ s.shutOff)
    (hus : l.Usable p) (hlim : l.SoCLimit p) (lo : ℚ)
    (hlo : ∀ j, lo ≤ p.tank.nodeTs j) (hone : 1 / ((n : ℚ) + 1) ≤ l.comparisonValue p) (limit : ℚ)
    (hlimit : ∀ minU hyst useC constM, l.kind = .soc minU hyst useC constM →
      limit = l.comparisonValue p + tolMin + (minU - p.mainsT useC constM + tolMin * (p.setpoint - lo)) /
          (((n : ℚ) + 1) * (p.setpoint - p.mainsT useC constM))) (a b : ExtState n)
    (inv : ExtInv s c externalT period p a) (hfresh : Fresh a.plant)
    (hmono : Monotone a.plant.tank.nodeTs) (hT : ∀ j, a.plant.tank.nodeTs j ≤ p.setpoint)
    (hoff : s.shutsOff a.plant = .ok false)
    (h : spPass s c externalT a = .ok (some b)) :
    Charged limit b.plant := by
  obtain ⟨perf, f, frac, time, rem', hp, hcold, hf, hff, hf1, hf0, hr⟩ := spPass_some s c externalT a b h
  have hset : a.plant.setpoint = p.setpoint := inv.same.2.1
  have hcp : a.plant.tank.nodeCp = p.tank.nodeCp := by rw [inv.same.1]
  have hvol : a.plant.tank.volume_L = p.tank.volume_L := by rw [inv.same.1]
  have htar : min c.maxSetpoint a.plant.setpoint = a.plant.setpoint := by rw [hset]; exact min_eq_right hmax
  rw [htar] at hcold hr
  have hpow : 0 < perf.outputPower_W := by
    refine hperf _ perf ⟨exists_node_le _ _ fun lo hlo => inv.lower lo hlo _, fun _ => ?_⟩ (hset ▸ hp)
    rw [min_eq_right hmax, ← hset]
    exact hcold
  have hab' : ∀ l ∈ s.shutOff, l.ShutsOffAbove a.plant := fun l hl => (habove l hl).congr inv.same
  have hf0 := hf0 (fractToMeet_nonneg s a.plant hab' hoff hf) hpow.le inv.nonneg (by rw [hcp]; exact ht.nodeCp_pos)
  have hf1 := hf1 (by rw [hcp]; exact ht.nodeCp_pos)
  obtain ⟨e1, -, -, -, e5, -, -⟩ := extFinishPass_spec s c a.plant a.net perf frac _ time rem' b
    (by rw [hvol]; exact ht.volume_pos.ne') hr
  have hT' : ∀ j, a.plant.tank.nodeTs j ≤ a.plant.setpoint := fun j => by rw [hset]; exact hT j
  have hsm := shiftNodes_monotone a.plant.tank.nodeTs s.externalOutlet frac a.plant.setpoint hf0 hf1 hmono hT'
  rw [htop, (C02_mixing_idempotent _).1 ((stratified_iff_monotone _).mpr hsm)] at e5
  have hsb : b.plant.setpoint = a.plant.setpoint := e1.2.1
  have hfb : Fresh b.plant := extFinishPass_fresh s c _ _ _ _ _ _ _ b hr
  refine ⟨hfb, by rw [e5]; exact hsm, fun j => ?_, ?_⟩
  · rw [e5, hsb]
    exact shiftNodes_le _ _ _ _ hf0 hf1 hT' j
  · obtain ⟨hcmp, minU, hyst, useC, constM, hk, hc⟩ := hlim
    obtain ⟨m1, m2⟩ := hsoc _ hc
    simp only at m1 m2
    have hca : a.plant.socControl = some ⟨minU, useC, constM⟩ := inv.same.2.2.2.2.trans hc
    have hcb : b.plant.socControl = some ⟨minU, useC, constM⟩ := e1.2.2.2.2.trans hca
    have hma : a.plant.mainsT useC constM = p.mainsT useC constM := by
      unfold Plant.mainsT; rw [inv.same.2.2.1]
    have hmb : b.plant.mainsT useC constM = a.plant.mainsT useC constM := by
      unfold Plant.mainsT; rw [e1.2.2.1]
    rw [← hma] at m1
    rw [← hset] at m2
    rw [hfb.charge hcb (by rw [hmb]; exact m1) (by rw [hsb]; exact m2), e5, hmb, hsb]
    have hca' : l.comparisonValue a.plant = l.comparisonValue p := by
      unfold Logic.comparisonValue; rw [hset]
    rw [hlimit _ _ _ _ hk, ← hca', ← hma, ← hset]
    obtain ⟨-, h2⟩ := fractToMeetLoop_le a.plant s.shutOff 1 f hf
    obtain ⟨g, hg, hfg⟩ := h2 l hl
    have husa := hus.congr inv.same
    exact soc_pass hk a.plant husa m1 m2 (by rw [hca']; exact hone)
      (soc_not_above hl ⟨hcmp, minU, hyst, useC, constM, hk, hca⟩ husa hoff)
      (hfresh.charge hca m1 m2) hmono hT' (inv.lower lo hlo) s.externalOutlet frac g hg (hff.trans hfg) hf0 hf1

/-- The loop of single passes to the top node under a limit of charge. -/
theorem spLoop_charge (s : SourceCfg n k) (c : CondCfg) (externalT period : ℚ) (p : Plant n)
    (ht : p.tank.Consistent) (htop : s.externalInlet = Fin.last n) (hsp : c.isMultipass = false)
    (hmax : p.setpoint ≤ c.maxSetpoint)
    (hperf : ∀ w perf, p.MayDraw c w →
      c.getPerformance s.airflowFreedom p.setpoint externalT w = .ok perf → 0 < perf.outputPower_W)
    (hsoc : p.SoCUsable) (habove : ∀ l ∈ s.shutOff, l.ShutsOffAbove p) (l : Logic) (hl : l ∈ s.shutOff)
    (hus : l.Usable p) (hlim : l.SoCLimit p) (lo : ℚ)
    (hlo : ∀ j, lo ≤ p.tank.nodeTs j) (hone : 1 / ((n : ℚ) + 1) ≤ l.comparisonValue p) (limit : ℚ)
    (hlimit : ∀ minU hyst useC constM, l.kind = .soc minU hyst useC constM →
      limit = l.comparisonValue p + tolMin + (minU - p.mainsT useC constM + tolMin * (p.setpoint - lo)) /
          (((n : ℚ) + 1) * (p.setpoint - p.mainsT useC constM))) (hlimit' : l.comparisonValue p ≤ limit) :
    ∀ (fuel : ℕ) (a a' : ExtState n),
    ExtInv s c externalT period p a → Fresh a.plant → Monotone a.plant.tank.nodeTs →
    (∀ j, a.plant.tank.nodeTs j ≤ p.setpoint) → s.shutsOff a.plant = .ok false →
    spLoop s c externalT fuel a = .ok a' →
    Charged limit a'.plant ∧ p.SameSettings a'.plant ∧
      (0 < a'.remaining → s.shutsOff a'.plant = .ok true ∨
        p.setpoint ≤ a'.plant.tank.nodeTs s.externalOutlet) := by
  have hoi : s.externalOutlet ≤ s.externalInlet := by rw [htop]; exact Fin.le_last _
  intro fuel
  induction fuel with
  | zero => intro a a' _ _ _ _ _ h; exact absurd h (by simp [spLoop])
  | succ fuel ih =>
    intro a a' inv hf hm hT hoff h
    rw [spLoop, bind_ok_iff] at h
    obtain ⟨r, hr, h⟩ := h
    have hset : a.plant.setpoint = p.setpoint := inv.same.2.1
    have hcmp : l.comparisonValue a.plant = l.comparisonValue p := by
      unfold Logic.comparisonValue; rw [hset]
    cases r with
    | none =>
      have e : a = a' := by simpa [pure, Except.pure] using h
      subst e
      refine ⟨⟨hf, hm, fun j => by rw [hset]; exact hT j, ?_⟩, inv.same, fun _ => Or.inr ?_⟩
      · have hlim' : l.SoCLimit a.plant := by
          obtain ⟨h1, minU, hyst, useC, constM, hk, hc⟩ := hlim
          exact ⟨h1, minU, hyst, useC, constM, hk, inv.same.2.2.2.2.trans hc⟩
        have := soc_not_above hl hlim' (hus.congr inv.same) hoff
        rw [hcmp] at this
        exact this.trans hlimit'
      · unfold spPass at hr
        rw [bind_ok_iff] at hr
        obtain ⟨perf, hp, hr⟩ := hr
        dsimp only at hr
        rw [hset, min_eq_right hmax] at hr
        by_cases hd : p.setpoint - a.plant.tank.nodeTs s.externalOutlet ≤ 0
        · linarith
        · rw [if_neg hd, bind_ok_iff] at hr
          obtain ⟨f, hf, hr⟩ := hr
          obtain ⟨-, hr⟩ := ite_error_ok hr
          rw [bind_ok_iff] at hr
          obtain ⟨r, -, hr⟩ := hr
          exact absurd (Except.ok.inj hr) (by simp)
    | some b =>
      have hb := spPass_charge s c externalT period p ht htop hmax hperf hsoc habove l hl hus hlim lo hlo hone limit hlimit a b inv hf hm hT
        hoff hr
      have ib := spPass_inv s c externalT period p a b ht.nodeCp_pos ht.volume_pos.ne' hoi hperf hsp
        (fun f hf => fractToMeet_nonneg s a.plant (fun l hl => (habove l hl).congr inv.same) hoff hf) inv hr
      simp only at h
      by_cases hrem : b.remaining > 0
      · rw [if_pos hrem, bind_ok_iff] at h
        obtain ⟨off, ho, h⟩ := h
        cases off with
        | true =>
          have e : b = a' := by simpa [pure, Except.pure] using h
          subst e
          exact ⟨hb, ib.same, fun _ => Or.inl ho⟩
        | false =>
          simp only [Bool.false_eq_true, if_false] at h
          exact ih b a' ib hb.fresh hb.mono (fun j => by rw [← ib.same.2.1]; exact hb.le j) ho h
      · rw [if_neg hrem] at h
        have e : b = a' := by simpa [pure, Except.pure] using h
        subst e
        exact ⟨hb, ib.same, fun hc => absurd hc hrem⟩

end HPWH
