import Verif.Spec.Between
import Verif.Props.Run
import Verif.Props.Room
import Verif.Props.Report

/-! # C83: temperatures between those supplied -/

namespace HPWH

open Spec Sim
open _root_.HPWH.Units

variable {n k : ℕ}

/-! ## A second inlet without water -/

theorem addInlets_congr {s s' : Tank.Inlets} (h1 : s.highNode = s'.highNode) (h2 : s.lowNode = s'.lowNode)
    (h3 : s.highFrac = s'.highFrac) (h4 : s.lowFrac = s'.lowFrac) (h5 : s.highFrac * s.highT = s'.highFrac * s'.highT)
    (h6 : s.lowFrac * s.lowT = s'.lowFrac * s'.lowT) (inc : ℚ) (i : ℕ) (h : i < n + 1) (frac : ℚ) (T : Nodes n ℚ) :
    Tank.addInlets s inc i h frac T = Tank.addInlets s' inc i h frac T := by
  unfold Tank.addInlets
  rw [h3] at h5
  rw [h4] at h6
  simp only [mul_assoc, h1, h2, h3, h4, h5, h6]

theorem drawSweepFrom_congr {s s' : Tank.Inlets} (inc : ℚ)
    (H : ∀ i h frac T, Tank.addInlets (n := n) s inc i h frac T = Tank.addInlets s' inc i h frac T) :
    ∀ (i : ℕ) (h : i < n + 1) (frac : ℚ) (T : Nodes n ℚ),
      Tank.drawSweepFrom s inc i h frac T = Tank.drawSweepFrom s' inc i h frac T
  | 0, h, frac, T => by simp only [Tank.drawSweepFrom, H]
  | i + 1, h, frac, T => by
    simp only [Tank.drawSweepFrom, H]
    exact drawSweepFrom_congr inc H i _ _ _

theorem drawLoop_congr {s s' : Tank.Inlets}
    (H : ∀ inc i h frac T, Tank.addInlets (n := n) s inc i h frac T = Tank.addInlets s' inc i h frac T) :
    ∀ (fuel : ℕ) (r e : ℚ) (t : Tank n), Tank.drawLoop s fuel r e t = Tank.drawLoop s' fuel r e t := by
  intro fuel
  induction fuel with
  | zero => intro r e t; unfold Tank.drawLoop; rfl
  | succ fuel ih =>
    intro r e t
    unfold Tank.drawLoop
    have : ∀ inc, Tank.drawIncrement t s inc = Tank.drawIncrement t s' inc := fun inc => by
      unfold Tank.drawIncrement
      simp only [drawSweepFrom_congr inc (H inc)]
    simp only [this, ih]

theorem processDraw_noSecond (t : Tank n) (d T1 x y : ℚ) :
    t.processDraw d T1 0 x = t.processDraw d T1 0 y := by
  have : t.draw (t.sortInlets d T1 0 x) (d / t.nodeVolume_L) = t.draw (t.sortInlets d T1 0 y) (d / t.nodeVolume_L) := by
    unfold Tank.draw
    congr 1
    apply drawLoop_congr
    intro inc i h frac T
    unfold Tank.sortInlets
    split_ifs <;> apply addInlets_congr <;> simp
  unfold Tank.processDraw Tank.drawWater
  simp only [this]

/-! ## Draw, losses and conduction -/

theorem updateNodes_between (t t' : Tank n) (hw : t.WellFormed) (hours seconds d T1 amb v2 T2 lo hi : ℚ)
    (hs : 0 ≤ seconds) (hh : 0 ≤ hours) (hd : 0 ≤ d) (hv : 0 ≤ v2)
    (he : t.hasHeatExchanger = true → (0 ≤ t.nodeHeatExchangerEffectiveness ∧ t.nodeHeatExchangerEffectiveness ≤ 1) ∧
      t.nodeHeatExchangerEffectiveness * d ≤ t.nodeVolume_L)
    (hUA : 0 ≤ t.UA * t.fracAreaTop) (hside : 0 ≤ t.UA * t.fracAreaSide + t.fittingsUA)
    (hsmall : 2 * t.tau seconds +
      (2 * (t.UA * t.fracAreaTop) + (t.UA * t.fracAreaSide + t.fittingsUA) / (n + 1)) * hours / t.nodeCp ≤ 1)
    (hT : Within t.nodeTs lo hi) (h1 : lo ≤ T1 ∧ T1 ≤ hi) (h2 : v2 = 0 ∨ lo ≤ T2 ∧ T2 ≤ hi) (ha : lo ≤ amb ∧ amb ≤ hi)
    (h : t.updateNodes hours seconds d T1 amb v2 T2 = .ok t') :
    Within t'.nodeTs lo hi ∧ (0 < d → lo ≤ t'.outletT ∧ t'.outletT ≤ hi) := by
  unfold Tank.updateNodes at h
  split at h
  swap
  · cases h
  rename_i t1 hdraw
  have hcfg : t1.toTankCfg = t.toTankCfg ∧ Within t1.nodeTs lo hi ∧ (0 < d → lo ≤ t1.outletT ∧ t1.outletT ≤ hi) := by
    rcases eq_or_lt_of_le hd with rfl | hd
    · unfold Tank.processDraw at hdraw
      simp at hdraw
      rw [← hdraw]
      exact ⟨rfl, hT, fun h => absurd h (lt_irrefl _)⟩
    · obtain ⟨_, hmix⟩ := Tank.processDraw_ok t t1 _ _ _ _ hd hdraw
      refine ⟨(Tank.mixBottom_ok _ _ hmix).1.1.trans (Tank.drawWater_same t hw d T1 v2 T2 hd).1, ?_⟩
      cases hx : t.hasHeatExchanger with
      | false =>
        have key : ∃ x, (lo ≤ x ∧ x ≤ hi) ∧ t.processDraw d T1 v2 x = .ok t1 := by
          rcases h2 with rfl | h2
          · exact ⟨T1, h1, by rw [processDraw_noSecond t d T1 T1 T2]; exact hdraw⟩
          · exact ⟨T2, h2, hdraw⟩
        obtain ⟨x, hx2, hdraw⟩ := key
        obtain ⟨a, b⟩ := C04_draw_within_range t t1 hw hx d T1 v2 x lo hi hd hv hdraw hT h1 hx2
        exact ⟨a, fun _ => b⟩
      | true =>
        obtain ⟨⟨e0, e1⟩, e2⟩ := he hx
        exact ⟨C05_heat_exchanger_nodes t t1 hw hx e0 e1 d T1 v2 T2 lo hi hd e2 hdraw hT h1.1 h1.2,
          fun _ => (C05_heat_exchanger_draw t t1 hw hx e0 e1 d T1 v2 T2 hd hdraw).2.2 lo hi hT h1.1 h1.2⟩
  obtain ⟨c1, c2, c3⟩ := hcfg
  have hw1 := hw.of_cfg c1
  obtain ⟨-, o, -⟩ := C06_losses_accounted t1 t' hw1.toConsistent hours seconds amb h
  refine ⟨C07_losses_within_range t1 t' hw1.toConsistent hours seconds amb lo hi hs hh ?_ ?_ ?_ h c2 ha, ?_⟩
  · rw [c1]; exact hUA
  · rw [c1]; exact hside
  · have : t1.tau seconds = t.tau seconds := by unfold Tank.tau; rw [c1]
    rw [this, c1]; exact hsmall
  · rw [o]; exact c3

theorem lies_coe {lo hi x : ℚ} : Lies lo (hi : WithTop ℚ) x ↔ lo ≤ x ∧ x ≤ hi := by
  unfold Lies
  rw [WithTop.coe_le_coe]

theorem lies_mid {lo : ℚ} {hi : WithTop ℚ} {x y w : ℚ} (hx : Lies lo hi x) (hy : Lies lo hi y) (h0 : 0 ≤ w) (h1 : w ≤ 1) :
    Lies lo hi (x + w * (y - x)) := by
  refine ⟨?_, ?_⟩
  · have := hx.1; have := hy.1
    nlinarith
  · cases hi with
    | top => exact le_top
    | coe hi =>
      have a := WithTop.coe_le_coe.mp hx.2
      have b := WithTop.coe_le_coe.mp hy.2
      apply WithTop.coe_le_coe.mpr
      nlinarith

theorem Sim.WorksBetween.wellFormed {s : Sim n k} {lo : ℚ} {hi : WithTop ℚ} {airLo airHi : ℚ}
    (h : s.WorksBetween lo hi airLo airHi) : s.tank.WellFormed where
  volume_pos := h.volume
  nodeVolume := h.nodeVolume
  nodeCp := by rw [h.nodeCp]; norm_num [cpWater, rhoWater]
  inlet_le := h.inlet
  inlet2_le := h.inlet2
  mixBelow_le := h.mixBelow

/-- The air of the step. -/
theorem Sim.WorksBetween.air {s : Sim n k} {lo : ℚ} {hi : WithTop ℚ} {airLo airHi : ℚ}
    (h : s.WorksBetween lo hi airLo airHi) {x : ℚ} {u : StepInput} (hu : s.SuppliedBetween x u lo hi airLo airHi) :
    Lies lo hi (s.tankAirT u) ∧ Lies airLo airHi (s.sourceAirT u) := by
  unfold Sim.tankAirT Sim.sourceAirT Sim.roomT
  cases hd : s.cfg.doTempDepression with
  | false => exact ⟨hu.around, hu.source hd⟩
  | true =>
    simp only [if_true]
    rcases (h.room hd).2 with e | ⟨e1, e2⟩
    · rw [if_pos e]
      exact ⟨hu.around, (hu.cooled hd).1⟩
    · split_ifs
      · exact ⟨hu.around, (hu.cooled hd).1⟩
      · exact ⟨e1, e2⟩

theorem Sim.WorksBetween.drawn {s : Sim n k} {lo : ℚ} {hi : WithTop ℚ} {airLo airHi : ℚ}
    (h : s.WorksBetween lo hi airLo airHi) {u : StepInput} (hu : s.SuppliedBetween s.inletT u lo hi airLo airHi)
    {t : Tank n} (ht : s.DrawnTank u t) :
    (∀ j, Lies lo hi (t.nodeTs j)) ∧ (0 < u.draw_L → Lies lo hi t.outletT) := by
  have hair := (h.air hu).1
  have hw0 : Tank.WellFormed { s.tank with outletT := 0, standbyLosses_kJ := 0 } := h.wellFormed.of_cfg rfl
  unfold Sim.DrawnTank at ht
  have key : ∀ H : ℚ, (∀ j, s.tank.nodeTs j ≤ H) → s.inletT ≤ H → (u.inletVol2_L = 0 ∨ u.inletT2 ≤ H) →
      s.tankAirT u ≤ H → Within t.nodeTs lo H ∧ (0 < u.draw_L → lo ≤ t.outletT ∧ t.outletT ≤ H) := by
    intro H h1 h2 h3 h4
    refine updateNodes_between _ t hw0 _ _ u.draw_L s.inletT _ u.inletVol2_L u.inletT2 lo H ?_ ?_ hu.draw hu.second
      (fun hx => ⟨h.effectiveness hx, hu.exchanger hx⟩) h.ends h.side h.gentle
      (fun j => ⟨(h.water j).1, h1 j⟩) ⟨hu.inlet.1, h2⟩ ?_ ⟨hair.1, h4⟩ ht
    · have := h.step; positivity
    · have := h.step; positivity
    · rcases hu.inlet2 with e | e
      · exact .inl e
      · rcases h3 with e' | h3
        · exact .inl e'
        · exact .inr ⟨e.1, h3⟩
  cases hi with
  | top =>
    obtain ⟨H, hH⟩ : ∃ H, ∀ j, s.tank.nodeTs j ≤ H :=
      ⟨Finset.univ.sup' ⟨0, Finset.mem_univ _⟩ s.tank.nodeTs, fun j => Finset.le_sup' _ (Finset.mem_univ j)⟩
    obtain ⟨a, b⟩ := key (max (max H s.inletT) (max u.inletT2 (s.tankAirT u)))
      (fun j => (hH j).trans (by simp)) (by simp) (.inr (by simp)) (by simp)
    exact ⟨fun j => ⟨(a j).1, le_top⟩, fun hd => ⟨(b hd).1, le_top⟩⟩
  | coe H =>
    obtain ⟨a, b⟩ := key H (fun j => WithTop.coe_le_coe.mp (h.water j).2) (WithTop.coe_le_coe.mp hu.inlet.2)
      (hu.inlet2.imp_right fun e => WithTop.coe_le_coe.mp e.2) (WithTop.coe_le_coe.mp hair.2)
    exact ⟨fun j => ⟨(a j).1, WithTop.coe_le_coe.mpr (a j).2⟩,
      fun hd => ⟨(b hd).1, WithTop.coe_le_coe.mpr (b hd).2⟩⟩

theorem Sim.WorksBetween.accountable {s : Sim n k} {lo : ℚ} {hi : WithTop ℚ} {airLo airHi : ℚ}
    (h : s.WorksBetween lo hi airLo airHi) {u : StepInput} (hu : s.SuppliedBetween s.inletT u lo hi airLo airHi) :
    s.Accountable u lo hi where
  nodes := h.nodes
  volume := h.volume
  nodeVolume := h.nodeVolume
  nodeCp := h.nodeCp
  inlet := h.inlet
  inlet2 := h.inlet2
  mixBelow := h.mixBelow
  mixing := h.mixing
  effectiveness := h.effectiveness
  draw := hu.draw
  step := h.step
  extra x hx := by rw [hu.extra] at hx; cases hx
  absolute := h.absolute
  setpoint := h.setpoint
  range t ht j := (h.drawn hu ht).1 j
  sound i := h.sound i _ (h.air hu).2

/-- **C83.** Between two temperatures: if water and setpoint of a water heater lie between `lo` and `hi`, and so do
the water and air supplied, then after a step all its water and the water drawn lie between them. The step balances
energy (C31), and the water heater is again one that works between them. -/
theorem C83_step (m : Libm) (hexp : ∀ x, 0 ≤ m.exp x) (fuel : ℕ) (s s' : Sim n k) (u : StepInput) (lo : ℚ)
    (hi : WithTop ℚ) (airLo airHi : ℚ) (h : s.WorksBetween lo hi airLo airHi)
    (hu : s.SuppliedBetween s.inletT u lo hi airLo airHi) (hr : Sim.runOneStep m fuel s u = .ok s') :
    (∀ j, Lies lo hi (s'.tank.nodeTs j)) ∧ (0 < u.draw_L → Lies lo hi s'.tank.outletT) ∧
    s'.WorksBetween lo hi airLo airHi ∧
    tankHeat s.tank.volume_L s'.tank.nodeTs = tankHeat s.tank.volume_L s.tank.nodeTs +
      3600 * ∑ i, (s'.st i).energyOutput_kWh +
      s.inletHeat u - (if u.draw_L = 0 then 0 else waterHeat u.draw_L s'.tank.outletT) -
      3600 * s'.standbyLosses_kWh := by
  obtain ⟨a1, a2, -, -, hc, hcfg, hsp, -, -, -, hlo, hhi, t, ht, ho⟩ :=
    step_facts_drawn m hexp fuel s s' u lo hi (h.accountable hu) hr
  have hwater : ∀ j, Lies lo hi (s'.tank.nodeTs j) := fun j => ⟨hlo j, hhi hu.extra j⟩
  refine ⟨hwater, fun hd => by rw [ho]; exact (h.drawn hu ht).2 hd, ?_, ?_⟩
  · have hroom := C37_room_temperature_step m fuel s s' u hr
    refine ⟨h.nodes, ?_, ?_, ?_, ?_, ?_, ?_, ?_, ?_, ?_, ?_, ?_, ?_, ?_, ?_, hwater, ?_, ?_⟩
    · rw [hc]; exact h.volume
    · rw [hc]; exact h.nodeVolume
    · rw [hc]; exact h.nodeCp
    · rw [hc]; exact h.inlet
    · rw [hc]; exact h.inlet2
    · rw [hc]; exact h.mixBelow
    · rw [hc]; exact h.mixing
    · rw [hc]; exact h.effectiveness
    · rw [hcfg]; exact h.step
    · rw [hsp]; exact h.absolute
    · rw [hc]; exact h.ends
    · rw [hc]; exact h.side
    · have : ∀ x, s'.tank.tau x = s.tank.tau x := fun x => by unfold Tank.tau; rw [hc]
      rw [this, hc, hcfg]; exact h.gentle
    · rw [hsp]; exact h.setpoint
    · rw [hcfg]
      intro hd
      refine ⟨(h.room hd).1, .inr ?_⟩
      rw [hd, if_pos rfl] at hroom
      have hair := h.air hu
      unfold Sim.tankAirT Sim.sourceAirT at hair
      rw [hd, if_pos rfl, if_pos rfl] at hair
      obtain ⟨c1, c2, c3⟩ := hu.cooled hd
      rw [hroom]
      dsimp only
      split_ifs
      · exact ⟨lies_mid c2 hair.1 (by norm_num) (by norm_num), lies_mid c3 hair.2 (by norm_num) (by norm_num)⟩
      · exact ⟨lies_mid hu.around hair.1 (by norm_num) (by norm_num), lies_mid c1 hair.2 (by norm_num) (by norm_num)⟩
    · rw [hcfg, hsp]; exact h.sound
  · rw [a2, hu.extra] at a1
    simpa using a1

/-- The conditions only depend on settings. -/
theorem Sim.SuppliedBetween.of_cfg {s s' : Sim n k} {x : ℚ} {u : StepInput} {lo : ℚ} {hi : WithTop ℚ} {airLo airHi : ℚ}
    (h : s.SuppliedBetween x u lo hi airLo airHi) (h1 : s'.tank.toTankCfg = s.tank.toTankCfg) (h2 : s'.cfg = s.cfg) :
    s'.SuppliedBetween x u lo hi airLo airHi :=
  ⟨h.draw, h.second, h.inlet, h.inlet2, by rw [h1]; exact h.exchanger, h.extra, h.around, by rw [h2]; exact h.source,
    by rw [h2]; exact h.cooled⟩

theorem lies_average {lo : ℚ} {hi : WithTop ℚ} {N : ℕ} (x w : Fin N → ℚ) (hw : ∀ t, 0 ≤ w t)
    (hne : ∑ t, w t ≠ 0) (hx : ∀ t, 0 < w t → Lies lo hi (x t)) :
    Lies lo hi ((∑ t, x t * w t) / ∑ t, w t) := by
  have hpos : 0 < ∑ t, w t := lt_of_le_of_ne (Finset.sum_nonneg fun t _ => hw t) hne.symm
  constructor
  · rw [le_div_iff₀ hpos, Finset.mul_sum]
    refine Finset.sum_le_sum fun t _ => ?_
    rcases (hw t).eq_or_lt with e | e
    · rw [← e]; simp
    · exact mul_le_mul_of_nonneg_right (hx t e).1 (hw t)
  · cases hi with
    | top => exact le_top
    | coe hi =>
      apply WithTop.coe_le_coe.mpr
      rw [div_le_iff₀ hpos, Finset.mul_sum]
      refine Finset.sum_le_sum fun t _ => ?_
      rcases (hw t).eq_or_lt with e | e
      · rw [← e]; simp
      · exact mul_le_mul_of_nonneg_right (WithTop.coe_le_coe.mp (hx t e).2) (hw t)

/-- **C83.** The same over a run of any number of steps: all temperatures of the tank and of the water delivered
stay between the limits, after every step, and the whole run balances energy. -/
theorem C83_run (m : Libm) (hexp : ∀ x, 0 ≤ m.exp x) (fuel : ℕ) (s0 s' : Sim n k) (us : List RunInput) (lo : ℚ)
    (hi : WithTop ℚ) (airLo airHi : ℚ) (h0 : s0.WorksBetween lo hi airLo airHi)
    (hu : ∀ u ∈ us, s0.SuppliedBetween u.inletT u.step lo hi airLo airHi)
    (h : Sim.runNSteps m fuel s0 us = .ok s') :
    (∀ j, Lies lo hi (s'.tank.nodeTs j)) ∧ Lies lo hi s'.tank.outletT ∧
    tankHeat s0.tank.volume_L s'.tank.nodeTs = tankHeat s0.tank.volume_L s0.tank.nodeTs +
      3600 * ∑ i, (s'.st i).energyOutput_kWh +
      ∑ t : Fin us.length, waterHeat us[t].draw_L us[t].inletT -
      waterHeat (∑ t : Fin us.length, us[t].draw_L) s'.tank.outletT -
      3600 * s'.standbyLosses_kWh := by
  obtain ⟨s, e0, h1, hne, hg⟩ := (C34_run_aggregates_steps m fuel s0 s' us).mp h
  have one : ∀ N (hN : N < us.length), (s N).WorksBetween lo hi airLo airHi →
      (s N).tank.toTankCfg = s0.tank.toTankCfg → (s N).cfg = s0.cfg →
      (0 < us[N].draw_L → Lies lo hi (s (N + 1)).tank.outletT) ∧ (s (N + 1)).WorksBetween lo hi airLo airHi ∧
      (s (N + 1)).tank.toTankCfg = s0.tank.toTankCfg ∧ (s (N + 1)).cfg = s0.cfg ∧
      tankHeat s0.tank.volume_L (s (N + 1)).tank.nodeTs = tankHeat s0.tank.volume_L (s N).tank.nodeTs +
        3600 * ∑ i, ((s (N + 1)).st i).energyOutput_kWh + waterHeat us[N].draw_L us[N].inletT -
        waterHeat 1 ((s (N + 1)).tank.outletT * us[N].draw_L) - 3600 * (s (N + 1)).standbyLosses_kWh := by
    intro N hN hb ht hc
    have hs : ((s N).setInletT us[N].inletT).WorksBetween lo hi airLo airHi := ⟨hb.nodes, hb.volume, hb.nodeVolume,
      hb.nodeCp, hb.inlet, hb.inlet2, hb.mixBelow, hb.mixing, hb.effectiveness, hb.step, hb.absolute, hb.ends,
      hb.side, hb.gentle, hb.setpoint, hb.water, hb.room, hb.sound⟩
    have hi' : ((s N).setInletT us[N].inletT).SuppliedBetween us[N].inletT us[N].step lo hi airLo airHi :=
      (hu _ (List.getElem_mem hN)).of_cfg ht hc
    have hr : Sim.runOneStep m fuel ((s N).setInletT us[N].inletT) us[N].step = .ok (s (N + 1)) := h1 ⟨N, hN⟩
    obtain ⟨-, c2, c3, c4⟩ := C83_step m hexp fuel _ _ us[N].step lo hi airLo airHi hs hi' hr
    obtain ⟨-, -, -, -, f1, f2, -⟩ := step_facts m hexp fuel _ _ us[N].step lo hi (hs.accountable hi') hr
    have f1 : (s (N + 1)).tank.toTankCfg = (s N).tank.toTankCfg := f1
    refine ⟨c2, c3, f1.trans ht, f2.trans hc, ?_⟩
    have hin : ((s N).setInletT us[N].inletT).inletHeat us[N].step = waterHeat us[N].draw_L us[N].inletT := by
      unfold Sim.inletHeat RunInput.step Sim.setInletT waterHeat
      by_cases hz : us[N].draw_L = 0
      · simp [hz]
      · simp only [hz, ↓reduceIte]
        split_ifs <;> ring
    have hout : (if us[N].step.draw_L = 0 then 0 else waterHeat us[N].step.draw_L (s (N + 1)).tank.outletT) =
        waterHeat 1 ((s (N + 1)).tank.outletT * us[N].draw_L) := by
      unfold RunInput.step waterHeat
      by_cases hz : us[N].draw_L = 0
      · simp [hz]
      · simp only [hz, ↓reduceIte]; ring
    rw [hin, hout] at c4
    change tankHeat (s N).tank.volume_L _ = tankHeat (s N).tank.volume_L (s N).tank.nodeTs + _ + _ - _ - _ at c4
    rw [ht] at c4
    exact c4
  have key : ∀ N (hN : N ≤ us.length), (s N).WorksBetween lo hi airLo airHi ∧
      (s N).tank.toTankCfg = s0.tank.toTankCfg ∧ (s N).cfg = s0.cfg ∧
      tankHeat s0.tank.volume_L (s N).tank.nodeTs = tankHeat s0.tank.volume_L s0.tank.nodeTs +
        ∑ t : Fin N, (3600 * ∑ i, ((s (t + 1)).st i).energyOutput_kWh +
          waterHeat us[(t : ℕ)].draw_L us[(t : ℕ)].inletT -
          waterHeat 1 ((s (t + 1)).tank.outletT * us[(t : ℕ)].draw_L) -
          3600 * (s (t + 1)).standbyLosses_kWh) := by
    intro N
    induction N with
    | zero => intro _; rw [e0]; exact ⟨h0, rfl, rfl, by simp⟩
    | succ N ih =>
      intro hN
      obtain ⟨i1, i2, i3, i4⟩ := ih (by omega)
      obtain ⟨-, j1, j2, j3, j4⟩ := one N (by omega) i1 i2 i3
      refine ⟨j1, j2, j3, ?_⟩
      rw [Fin.sum_univ_castSucc]
      simp only [Fin.val_castSucc, Fin.val_last]
      rw [j4, i4]
      ring
  obtain ⟨l1, l2, -, e⟩ := key us.length le_rfl
  have hn : s'.tank.nodeTs = (s us.length).tank.nodeTs := by rw [hg.last]
  refine ⟨fun j => by rw [hn]; exact l1.water j, ?_, ?_⟩
  · rw [hg.outlet]
    exact lies_average (fun t : Fin us.length => (s (t + 1)).tank.outletT) (fun t : Fin us.length => us[t].draw_L)
      (fun t => (hu _ (List.getElem_mem _)).draw) hne
      (fun t ht => (one t t.2 (key t t.2.le).1 (key t t.2.le).2.1 (key t t.2.le).2.2.1).1 ht)
  rw [hn, e]
  have ho : ∑ i, (s'.st i).energyOutput_kWh =
      ∑ t : Fin us.length, ∑ i, ((s (t + 1)).st i).energyOutput_kWh := by
    rw [Finset.sum_comm]
    exact Finset.sum_congr rfl fun i _ => hg.output i
  have hw : waterHeat (∑ t : Fin us.length, us[t].draw_L) s'.tank.outletT =
      ∑ t : Fin us.length, waterHeat 1 ((s (t + 1)).tank.outletT * us[t].draw_L) := by
    rw [hg.outlet]
    unfold waterHeat
    rw [← Finset.mul_sum, mul_assoc, mul_div_cancel₀ _ hne]
    ring
  rw [ho, hw, hg.standby, Finset.sum_sub_distrib, Finset.sum_sub_distrib, Finset.sum_add_distrib,
    Finset.mul_sum, Finset.mul_sum]
  simp only [Fin.getElem_fin]
  ring

/-- The sample system works between the temperature of cold water and its setpoint, and is supplied accordingly. -/
theorem sampleSim_between : sampleSim.WorksBetween 5 ((55 : ℚ) : WithTop ℚ) 0 40 where
  nodes := by norm_num
  volume := warmTank_wellFormed.volume_pos
  nodeVolume := warmTank_wellFormed.nodeVolume
  nodeCp := by decide +kernel
  inlet := warmTank_wellFormed.inlet_le
  inlet2 := warmTank_wellFormed.inlet2_le
  mixBelow := warmTank_wellFormed.mixBelow_le
  mixing := by decide +kernel
  effectiveness := by decide +kernel
  step := by decide +kernel
  absolute := by decide +kernel
  ends := by decide +kernel
  side := by decide +kernel
  gentle := by decide +kernel
  setpoint := WithTop.coe_le_coe.mpr (by decide +kernel)
  water j := by
    have : ∀ j, 5 ≤ sampleSim.tank.nodeTs j ∧ sampleSim.tank.nodeTs j ≤ 55 := by decide +kernel
    exact ⟨(this j).1, WithTop.coe_le_coe.mpr (this j).2⟩
  room h := by cases h
  sound i air _ := sampleSim_sound _ air 5 _ i

example : sampleSim.WorksBetween 5 ((55 : ℚ) : WithTop ℚ) 0 40 ∧
    (∀ u ∈ sampleRun, sampleSim.SuppliedBetween u.inletT u.step 5 ((55 : ℚ) : WithTop ℚ) 0 40) ∧
    ∃ s', Sim.runNSteps sampleLibm 5 sampleSim sampleRun = .ok s' ∧ 0 < (s'.st 0).energyOutput_kWh := by
  refine ⟨sampleSim_between, fun u hu => ?_, by decide +kernel⟩
  simp only [sampleRun, List.mem_cons, List.not_mem_nil, or_false] at hu
  rcases hu with rfl | rfl
  all_goals
    exact ⟨by norm_num [RunInput.step], le_refl 0, lies_coe.mpr (by norm_num), .inl rfl, fun h => (by cases h), rfl,
      lies_coe.mpr (by norm_num [RunInput.step]), fun _ => lies_coe.mpr (by norm_num [RunInput.step]),
      fun h => (by cases h)⟩

/-- A multi-pass heat pump running with all water at 54 °C; the setpoint is 55 °C. -/
def passingSim : Sim 3 2 :=
  { sampleMultipass with
    tank := { sampleMultipass.tank with nodeTs := fun _ => 54 }
    st := ![{ sampleMultipass.st 0 with isOn := true }, sampleMultipass.st 1]
    isHeating := true
    cfg := { sampleMultipass.cfg with
      src := ![{ sampleMultipass.cfg.src 0 with shutOff := [] }, sampleMultipass.cfg.src 1] } }

/-- **C83.** For external multi-pass heat pumps there is no upper limit (`Sound` asks for none): within a minute water
below the setpoint can be heated above it, here from 54 °C to more than 58 °C. -/
theorem C83_multipass_overheats : passingSim.setpoint = 55 ∧
    ∃ s', Sim.runOneStep sampleLibm 20 passingSim { sampleInput with draw_L := 0, inletVol2_L := 0 } = .ok s' ∧
      58 < s'.tank.nodeTs 3 := by
  decide +kernel

end HPWH
