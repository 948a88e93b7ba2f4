import Verif.Lemmas.AddHeat
import Verif.Lemmas.WDist
import Verif.Model.HeatSource

/-! Helper lemmas about distributed heating. -/

namespace HPWH

variable {n k : ℕ}

/-- Inversion of a sequenced computation. -/
theorem bind_ok_iff {α β : Type} (x : Res α) (f : α → Res β) (b : β) :
    (x >>= f) = .ok b ↔ ∃ a, x = .ok a ∧ f a = .ok b := by
  cases x with
  | error e => simp [bind, Except.bind]
  | ok a => simp [bind, Except.bind]

/-- The result required of `heat`: `L'` of the offered heat `q` is left over. -/
structure HeatSpec (cp lim q : ℚ) (T : Nodes n ℚ) (L' : ℚ) (T' : Nodes n ℚ) : Prop where
  nonneg : 0 ≤ L'
  energy : cp * ∑ k, T' k = cp * ∑ k, T k + (q - L')
  warmer : ∀ k, T k ≤ T' k
  cap : ∀ k, T' k = T k ∨ T' k ≤ lim
  mono : Monotone T'
  full : 0 < L' → lim ≤ T' (Fin.last n)

theorem sum_below_succ (dist : Nodes n ℚ) (i : ℕ) (h : i < n + 1) :
    ∑ j : Fin (n + 1), (if j.val < i + 1 then dist j else 0) =
      dist ⟨i, h⟩ + ∑ j : Fin (n + 1), (if j.val < i then dist j else 0) := by
  have : ∀ j : Fin (n + 1), (if j.val < i + 1 then dist j else 0) =
      (if j = ⟨i, h⟩ then dist j else 0) + (if j.val < i then dist j else 0) := by
    intro j
    by_cases hj : j = ⟨i, h⟩
    · subst hj; simp
    · have : j.val ≠ i := fun hc => hj (Fin.ext hc)
      simp only [hj, if_false, zero_add]
      congr 1
      apply propext; omega
  simp only [this]
  rw [Finset.sum_add_distrib]
  simp

theorem heatLoop_spec (cp : ℚ) (offered cap maxW : ℚ) (dist : Nodes n ℚ) (hcp : 0 < cp)
    (hoff : 0 ≤ offered) (hd : ∀ i, 0 ≤ dist i) (hw : ∀ i, dist i ≤ maxW) (hmax : 0 < maxW) :
    ∀ (i : ℕ) (h : i ≤ n + 1) (leftover : ℚ) (t : Tank n), t.nodeCp = cp → 0 ≤ leftover →
      Monotone t.nodeTs → (0 < leftover → cap ≤ t.nodeTs (Fin.last n)) →
      (heatLoop offered cap maxW dist i h leftover t).2 =
        { t with nodeTs := (heatLoop offered cap maxW dist i h leftover t).2.nodeTs } ∧
      HeatSpec cp cap (leftover + (∑ j : Fin (n + 1), if j.val < i then dist j else 0) * offered)
        t.nodeTs (heatLoop offered cap maxW dist i h leftover t).1
        (heatLoop offered cap maxW dist i h leftover t).2.nodeTs ∧
      (∀ k, (∀ j, j ≤ k → dist j = 0) →
        (heatLoop offered cap maxW dist i h leftover t).2.nodeTs k = t.nodeTs k) := by
  intro i
  induction i with
  | zero =>
    intro h L t hc hL hm hf
    simp only [heatLoop]
    exact ⟨trivial, ⟨hL, by simp, fun _ => le_rfl, fun _ => Or.inl rfl, hm, hf⟩,
      fun _ _ => trivial⟩
  | succ i ih =>
    intro h L t hc hL hm hf
    rw [heatLoop]
    have hdi := hd ⟨i, by omega⟩
    have hwi := hw ⟨i, by omega⟩
    have hx0 : 0 ≤ 1 - dist ⟨i, by omega⟩ / maxW := by
      have : dist ⟨i, by omega⟩ / maxW ≤ 1 := (div_le_one hmax).mpr hwi
      linarith
    have hx1 : 1 - dist ⟨i, by omega⟩ / maxW ≤ 1 := by
      have : 0 ≤ dist ⟨i, by omega⟩ / maxW := div_nonneg hdi hmax.le
      linarith
    have hy0 : 0 ≤ (1 - dist ⟨i, by omega⟩ / maxW) ^ 2 := sq_nonneg _
    have hy1 : (1 - dist ⟨i, by omega⟩ / maxW) ^ 2 ≤ 1 := pow_le_one₀ hx0 hx1
    rw [sum_below_succ dist i (by omega)]
    dsimp only
    set d := dist ⟨i, by omega⟩ with hd'
    set y := (1 - d / maxW) ^ 2 with hy'
    have hyL0 : 0 ≤ y * L := mul_nonneg hy0 hL
    have hyL1 : y * L ≤ L := by nlinarith
    have hdo : 0 ≤ d * offered := mul_nonneg hdi hoff
    split_ifs with hav
    · obtain ⟨he, hs⟩ := t.addHeatAboveNode_spec (d * offered + (L - y * L)) ⟨i, by omega⟩ cap
        (by rw [hc]; exact hcp) hm hav.le
      rw [hc] at hs
      set r := t.addHeatAboveNode (d * offered + (L - y * L)) ⟨i, by omega⟩ cap with hr
      have hrc : r.2.nodeCp = cp := by rw [he]; exact hc
      have hL' : 0 ≤ r.1 + y * L := add_nonneg hs.nonneg hyL0
      have hlast : t.nodeTs (Fin.last n) ≤ r.2.nodeTs (Fin.last n) := hs.warmer _
      have hf' : 0 < r.1 + y * L → cap ≤ r.2.nodeTs (Fin.last n) := by
        intro hpos
        by_cases hr0 : 0 < r.1
        · exact hs.full hr0 _ (Fin.le_last _)
        · have : 0 < y * L := by linarith
          have : 0 < L := by
            rcases hL.lt_or_eq with h1 | h1
            · exact h1
            · rw [← h1] at this; simp at this
          exact (hf this).trans hlast
      obtain ⟨ie, is, ib⟩ := ih (by omega) (r.1 + y * L) r.2 hrc hL' hs.mono hf'
      refine ⟨?_, ⟨is.nonneg, ?_, fun k => (hs.warmer k).trans (is.warmer k), fun k => ?_,
        is.mono, is.full⟩, ?_⟩
      · rw [ie, he]
      · rw [is.energy, hs.energy]; ring
      · rcases is.cap k with h1 | h1
        · rw [h1]; exact hs.cap k
        · exact Or.inr h1
      · intro k hk
        rw [ib k hk]
        apply hs.below
        by_contra hcon
        have hle : (⟨i, by omega⟩ : Fin (n + 1)) ≤ k := not_lt.mp hcon
        have hdz : d = 0 := hk _ hle
        have : y = 1 := by rw [hy', hdz]; simp
        rw [hdz, this] at hav
        simp at hav
    · have havz : d * offered + (L - y * L) = 0 := le_antisymm (not_lt.mp hav) (by linarith)
      have hdz : d * offered = 0 := by linarith
      obtain ⟨ie, is, ib⟩ := ih (by omega) L t hc hL hm hf
      refine ⟨ie, ⟨is.nonneg, ?_, is.warmer, is.cap, is.mono, is.full⟩, ib⟩
      rw [is.energy]
      linear_combination (-1 : ℚ) * hdz

theorem le_maxWeight (dist : Nodes n ℚ) (i : Fin (n + 1)) : dist i ≤ maxWeight dist :=
  Finset.le_sup' dist (Finset.mem_univ i)

theorem maxWeight_pos (dist : Nodes n ℚ) (hs : 0 < ∑ i, dist i) : 0 < maxWeight dist := by
  by_contra hc
  have : ∑ i, dist i ≤ 0 :=
    Finset.sum_nonpos fun i _ => (le_maxWeight dist i).trans (not_lt.mp hc)
  linarith

theorem heat_spec (t : Tank n) (setpoint : ℚ) (dist : Nodes n ℚ) (offered maxT : ℚ)
    (hcp : 0 < t.nodeCp) (hm : Monotone t.nodeTs) (hd : ∀ i, 0 ≤ dist i) (hs : ∑ i, dist i = 1)
    (hoff : 0 ≤ offered) :
    ∃ r, heat t setpoint dist offered maxT = .ok r ∧ r.2 = { t with nodeTs := r.2.nodeTs } ∧
      HeatSpec t.nodeCp (min maxT setpoint) offered t.nodeTs r.1 r.2.nodeTs ∧
      (∀ k, (∀ j, j ≤ k → dist j = 0) → r.2.nodeTs k = t.nodeTs k) := by
  have hpos : 0 < maxWeight dist := maxWeight_pos dist (by rw [hs]; norm_num)
  refine ⟨heatLoop offered (min maxT setpoint) (maxWeight dist) dist (n + 1) le_rfl 0 t, ?_, ?_⟩
  · rw [heat, if_neg hpos.ne']
  · obtain ⟨h1, h2, h3⟩ := heatLoop_spec t.nodeCp offered (min maxT setpoint) (maxWeight dist) dist
      hcp hoff hd (le_maxWeight dist) hpos (n + 1) le_rfl 0 t rfl le_rfl hm (by simp)
    refine ⟨h1, ?_, h3⟩
    have : ∑ j : Fin (n + 1), (if j.val < n + 1 then dist j else 0) = 1 := by
      rw [← hs]; exact Finset.sum_congr rfl fun j _ => if_pos j.isLt
    rw [this] at h2
    simpa using h2

/-- What a heat source that ran for `minutes` leaves behind: `T'` are the new node temperatures. -/
structure RunSpec (cp lim minutes : ℚ) (T T' : Nodes n ℚ) (st st' : SourceState) : Prop where
  on : st'.isOn = st.isOn
  locked : st'.lockedOut = st.lockedOut
  nonneg : 0 ≤ st'.runtime_min
  le : st'.runtime_min ≤ minutes
  energy : cp * ∑ k, T' k = cp * ∑ k, T k + 3600 * (st'.energyOutput_kWh - st.energyOutput_kWh)
  warmer : ∀ k, T k ≤ T' k
  cap : ∀ k, T' k = T k ∨ T' k ≤ lim
  mono : Monotone T'
  full : st'.runtime_min < minutes → lim ≤ T' (Fin.last n)

theorem HeatSpec.le {cp lim q L' : ℚ} {T T' : Nodes n ℚ} (hcp : 0 < cp)
    (h : HeatSpec cp lim q T L' T') : L' ≤ q := by
  have h1 := h.energy
  have : ∑ k, T k ≤ ∑ k, T' k := Finset.sum_le_sum fun k _ => h.warmer k
  nlinarith

/-- From the left-over heat to the reported run time and energy. -/
theorem HeatSpec.run {cp lim power minutes L' : ℚ} {T T' : Nodes n ℚ} (hcp : 0 < cp)
    (hp : 0 < power) (hm : 0 < minutes)
    (h : HeatSpec cp lim (power * (minutes * 60)) T L' T') (st : SourceState) (inE : ℚ) :
    RunSpec cp lim minutes T T' st
      { st with
        runtime_min := (1 - L' / (power * (minutes * 60))) * minutes
        energyInput_kWh := inE
        energyOutput_kWh := st.energyOutput_kWh +
          power * ((1 - L' / (power * (minutes * 60))) * minutes / 60) } := by
  have hq : 0 < power * (minutes * 60) := by positivity
  have hL := h.le hcp
  have h0 := h.nonneg
  have hr1 : L' / (power * (minutes * 60)) ≤ 1 := (div_le_one hq).mpr hL
  have hr0 : 0 ≤ L' / (power * (minutes * 60)) := div_nonneg h0 hq.le
  refine ⟨rfl, rfl, ?_, ?_, ?_, h.warmer, h.cap, h.mono, ?_⟩
  · exact mul_nonneg (by linarith) hm.le
  · simp only; nlinarith
  · rw [h.energy]
    simp only
    field_simp
    ring
  · intro hlt
    apply h.full
    by_contra hc
    have : L' = 0 := le_antisymm (not_lt.mp hc) h0
    simp [this] at hlt

theorem resistanceAddHeat_spec (s : SourceCfg n k) (power : ℚ) (p : Plant n) (st : SourceState)
    (minutes : ℚ) (hp : 0 < power) (hmin : 0 < minutes) (hcp : 0 < p.tank.nodeCp)
    (hm : Monotone p.tank.nodeTs) (hd : s.heatDist.Proper) :
    ∃ T' st', resistanceAddHeat s power p st minutes =
        .ok ({ p with tank := { p.tank with nodeTs := T' } }, st') ∧
      RunSpec p.tank.nodeCp (min 100 p.setpoint) minutes p.tank.nodeTs T' st st' ∧
      st'.energyInput_kWh - st.energyInput_kWh = st'.energyOutput_kWh - st.energyOutput_kWh ∧
      st'.energyOutput_kWh - st.energyOutput_kWh = power * (st'.runtime_min / 60) ∧
      (∀ k : Fin (n + 1), (∀ j : Fin (n + 1), j ≤ k → s.heatDist.share (n + 1) j = 0) →
        T' k = p.tank.nodeTs k) := by
  have hq : 0 < power * (minutes * Units.secPerMin) := by unfold Units.secPerMin; positivity
  obtain ⟨r, hr, he, hs, hb⟩ := heat_spec p.tank p.setpoint
    (fun k : Fin (n + 1) => s.heatDist.share (n + 1) k)
    (power * (minutes * Units.secPerMin)) 100 hcp hm (fun i => WDist.share_nonneg hd _ _)
    (WDist.sum_share hd (Nat.succ_pos n)) hq.le
  have hrun := HeatSpec.run hcp hp hmin (by unfold Units.secPerMin at hs; exact hs) st
    (st.energyInput_kWh + power * ((1 - r.1 / (power * (minutes * 60))) * minutes / 60))
  have h0 : ¬ (1 - r.1 / (power * (minutes * Units.secPerMin))) * minutes < -tolMin := by
    have := hrun.nonneg
    simp only [Units.secPerMin] at this ⊢
    have h2 : 0 < tolMin := by unfold tolMin; norm_num
    linarith
  refine ⟨r.2.nodeTs, _, ?_, hrun, ?_, ?_, hb⟩
  · unfold resistanceAddHeat
    rw [WDist.calcHeatDist_eq hd (Nat.succ_pos n)]
    simp only [bind, Except.bind]
    rw [hr]
    simp only [hq.ne', if_false, h0]
    simp only [pure, Except.pure]
    rw [he]
    rfl
  · simp
  · simp

/-- A computed heat distribution of a condenser in or around the tank. -/
theorem condenserHeatDist_spec (exp : ℚ → ℚ) (hexp : ∀ x, 0 ≤ exp x) (s : SourceCfg n k)
    (c : CondCfg) (p : Plant n) (hd : s.heatDist.Proper) (hshr : s.shrinkageT ≠ 0)
    (hn : n + 1 ≤ 10000) (hc : c.configuration ≠ .external) :
    ∃ d, condenserHeatDist exp s c p = .ok d ∧ (∀ i, 0 ≤ d i) ∧ ∑ i, d i = 1 := by
  unfold condenserHeatDist
  cases hcfg : c.configuration with
  | external => exact absurd hcfg hc
  | submerged =>
    exact ⟨_, WDist.calcHeatDist_eq hd (Nat.succ_pos n), fun i => WDist.share_nonneg hd _ _,
      WDist.sum_share hd (Nat.succ_pos n)⟩
  | wrapped =>
    obtain ⟨d, h1, h2, h3, -⟩ := calcThermalDist_spec exp hexp s.shrinkageT hshr s.lowestNode
      p.tank.nodeTs p.setpoint hn
    exact ⟨d, h1, h2, h3⟩

theorem internalAddHeat_spec (exp : ℚ → ℚ) (hexp : ∀ x, 0 ≤ exp x) (s : SourceCfg n k)
    (c : CondCfg) (p : Plant n) (st : SourceState) (externalT minutes : ℚ)
    (hmin : 0 < minutes) (hcp : 0 < p.tank.nodeCp) (hm : Monotone p.tank.nodeTs)
    (hd : s.heatDist.Proper) (hshr : s.shrinkageT ≠ 0) (hn : n + 1 ≤ 10000)
    (hc : c.configuration ≠ .external) (perf : Perf)
    (hperf : ∃ w, s.tankTemp p = .ok w ∧ c.getPerformance s.airflowFreedom p.setpoint externalT w = .ok perf)
    (hpos : 0 < perf.outputPower_W) :
    ∃ T' st' cin cout, internalAddHeat exp s c p st externalT minutes =
        .ok ({ p with tank := { p.tank with nodeTs := T' }, condenserInlet := cin,
                      condenserOutlet := cout }, st') ∧
      RunSpec p.tank.nodeCp (min c.maxSetpoint p.setpoint) minutes p.tank.nodeTs T' st st' ∧
      st'.energyInput_kWh - st.energyInput_kWh =
        perf.inputPower_W / 1000 * (st'.runtime_min / 60) ∧
      st'.energyOutput_kWh - st.energyOutput_kWh =
        perf.outputPower_W / 1000 * (st'.runtime_min / 60) := by
  obtain ⟨w, hw, hperf⟩ := hperf
  obtain ⟨d, hd1, hd2, hd3⟩ := condenserHeatDist_spec exp hexp s c p hd hshr hn hc
  have hpw : Units.W_TO_KW perf.outputPower_W = perf.outputPower_W / 1000 := by
    unfold Units.W_TO_KW; ring
  have hpi : Units.W_TO_KW perf.inputPower_W = perf.inputPower_W / 1000 := by
    unfold Units.W_TO_KW; ring
  have hp : 0 < perf.outputPower_W / 1000 := by positivity
  have hcomm : Units.W_TO_KW perf.outputPower_W * (60 * minutes) =
    perf.outputPower_W / 1000 * (minutes * 60) := by rw [hpw]; ring
  have hq : 0 < Units.W_TO_KW perf.outputPower_W * (60 * minutes) := by
    rw [hcomm]; positivity
  obtain ⟨r, hr, he, hs, -⟩ := heat_spec p.tank p.setpoint d
    (Units.W_TO_KW perf.outputPower_W * (60 * minutes)) c.maxSetpoint hcp hm hd2 hd3 hq.le
  rw [hcomm] at hs
  have hrun := HeatSpec.run hcp hp hmin hs st
    (st.energyInput_kWh + perf.inputPower_W / 1000 *
      ((1 - r.1 / (perf.outputPower_W / 1000 * (minutes * 60))) * minutes / 60))
  have h0 : ¬ (1 - r.1 / (Units.W_TO_KW perf.outputPower_W * (60 * minutes))) * minutes
      < -tolMin := by
    have := hrun.nonneg
    rw [hcomm]
    have h2 : 0 < tolMin := by unfold tolMin; norm_num
    simp only at this
    linarith
  have hq' := hq.ne'
  obtain ⟨cout, hcout⟩ : ∃ cout, s.tankTemp
      ({ p with tank := r.2, condenserInlet := w } : Plant n) = .ok cout :=
    ⟨_, WDist.averageT_eq (Nat.succ_pos n) hd _⟩
  refine ⟨r.2.nodeTs, _, w, cout, ?_, hrun, ?_, ?_⟩
  · unfold internalAddHeat
    rw [hw]
    simp only [bind, Except.bind]
    rw [hperf]
    simp only [hd1]
    rw [hr]
    simp only [hq', if_false, h0, hcout]
    simp only [pure, Except.pure, hpw, hpi, mul_comm 60 minutes]
    rw [← he]
    rfl
  · simp
  · simp

end HPWH
