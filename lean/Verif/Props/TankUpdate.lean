import Verif.Props.Mix
import Verif.Lemmas.Losses

/-! # C03–C09: draws, heat exchanger, losses, conduction, whole node update -/

namespace HPWH

open Spec

variable {n : ℕ}

/-- A tank whose derived constants match its volume (`Consistent`), whose inlets are existing nodes
and whose bottom-mixing fraction is at most one. -/
structure Tank.WellFormed (t : Tank n) : Prop extends t.Consistent where
  inlet_le : t.inletHeight ≤ n
  inlet2_le : t.inlet2Height ≤ n
  mixBelow_le : t.mixBelowFractionOnDraw ≤ 1

theorem sampleTank_wellFormed : sampleTank.WellFormed where
  volume_pos := by decide +kernel
  nodeVolume := by decide +kernel
  nodeCp := by decide +kernel
  inlet_le := by decide
  inlet2_le := by decide
  mixBelow_le := by decide +kernel

namespace Tank

theorem Consistent.nodeVolume_pos {t : Tank n} (h : t.Consistent) : 0 < t.nodeVolume_L := by
  rw [h.nodeVolume]
  exact div_pos h.volume_pos t.numNodes_pos

theorem Consistent.nodeCp_pos {t : Tank n} (h : t.Consistent) : 0 < t.nodeCp := by
  rw [h.nodeCp]
  have := h.nodeVolume_pos
  have h1 : 0 < cpWater := by norm_num [cpWater]
  have h2 : 0 < rhoWater := by norm_num [rhoWater]
  positivity

/-- The specification's heat content in terms of node heat capacity. -/
theorem Consistent.tankHeat_eq {t : Tank n} (h : t.Consistent) (T : Nodes n ℚ) :
    tankHeat t.volume_L T = t.nodeCp * ∑ k, T k := by
  unfold tankHeat waterHeat
  rw [← Finset.mul_sum, h.nodeCp, h.nodeVolume]
  norm_num [numNodes, cpWater, rhoWater]

/-- The model's `heatContent` is the specification's. -/
theorem heatContent_eq (t : Tank n) : t.heatContent = tankHeat t.volume_L t.nodeTs := by
  unfold heatContent averageNodeT tankHeat waterHeat
  rw [← Finset.mul_sum]
  have := t.numNodes_pos
  unfold numNodes rhoWater cpWater at *
  field_simp

theorem Consistent.drawCp_eq {t : Tank n} (h : t.Consistent) (d : ℚ) :
    cpWater * rhoWater * d = t.nodeCp * (d / t.nodeVolume_L) := by
  rw [h.nodeCp]
  have := h.nodeVolume_pos
  field_simp

/-- Facts about the sorted inlets that do not depend on which one is higher. -/
theorem sortInlets_facts (t : Tank n) (d in1 v2 in2 : ℚ) :
    let s := sortInlets t d in1 v2 in2
    (t.inletHeight ≤ n → t.inlet2Height ≤ n → s.highNode ≤ n ∧ s.lowNode ≤ n) ∧
    s.highFrac * s.highT + s.lowFrac * s.lowT = (1 - v2 / d) * in1 + v2 / d * in2 ∧
    s.highFrac + s.lowFrac = 1 ∧
    (0 ≤ v2 / d → v2 / d ≤ 1 → 0 ≤ s.highFrac ∧ 0 ≤ s.lowFrac) ∧
    (∀ lo hi : ℚ, (lo ≤ in1 ∧ in1 ≤ hi) → (lo ≤ in2 ∧ in2 ≤ hi) →
      (lo ≤ s.highT ∧ s.highT ≤ hi) ∧ (lo ≤ s.lowT ∧ s.lowT ≤ hi)) := by
  simp only [sortInlets]
  split
  · refine ⟨fun a b => ⟨a, b⟩, rfl, by ring, fun a b => ⟨by simpa using b, by simpa using a⟩,
      fun lo hi a b => ⟨a, b⟩⟩
  · refine ⟨fun a b => ⟨b, a⟩, by ring, by ring, fun a b => ⟨by simpa using a, by simpa using b⟩,
      fun lo hi a b => ⟨b, a⟩⟩

/-- The draw only changes node temperatures and the outlet temperature. -/
theorem drawWater_same (t : Tank n) (hw : t.WellFormed) (d in1 v2 in2 : ℚ) (hd : 0 < d) :
    (t.drawWater d in1 v2 in2).toTankCfg = t.toTankCfg ∧
    (t.drawWater d in1 v2 in2).standbyLosses_kJ = t.standbyLosses_kJ := by
  unfold drawWater
  simp only
  split
  · exact ⟨rfl, rfl⟩
  · have hn := (sortInlets_facts t d in1 v2 in2).1 hw.inlet_le hw.inlet2_le
    have hnv := hw.toConsistent.nodeVolume_pos
    have g1 := (draw_spec t (t.sortInlets d in1 v2 in2) (d / t.nodeVolume_L) (by positivity)
      hw.volume_pos.ne' hw.toConsistent.nodeCp_pos.ne' hn.1 hn.2).1
    rw [g1]
    exact ⟨rfl, rfl⟩

/-- What bottom mixing does. -/
theorem mixBottom_ok (t t' : Tank n) (h : t.mixBottom = .ok t') :
    (t'.toTankCfg = t.toTankCfg ∧ t'.standbyLosses_kJ = t.standbyLosses_kJ ∧
      t'.outletT = t.outletT) ∧ ∑ k, t'.nodeTs k = ∑ k, t.nodeTs k ∧
    ∀ lo hi, Within t.nodeTs lo hi → Within t'.nodeTs lo hi := by
  unfold mixBottom at h
  split at h
  · split at h
    · rename_i T hT
      cases h
      exact ⟨⟨rfl, rfl, rfl⟩, mixNodes_sum _ _ _ _ _ hT, fun lo hi hb =>
        mixNodes_bounds _ _ _ _ _ (by norm_num) (by norm_num) hT lo hi hb⟩
    · cases h
  · cases h
    exact ⟨⟨rfl, rfl, rfl⟩, rfl, fun _ _ h => h⟩

/-- Well-formedness depends on the settings only. -/
theorem WellFormed.of_cfg {t t' : Tank n} (hw : t.WellFormed) (h : t'.toTankCfg = t.toTankCfg) :
    t'.WellFormed where
  volume_pos := by rw [h]; exact hw.volume_pos
  nodeVolume := by
    change t'.toTankCfg.nodeVolume_L = t'.toTankCfg.volume_L / t.numNodes
    rw [h]; exact hw.nodeVolume
  nodeCp := by rw [h]; exact hw.nodeCp
  inlet_le := by rw [h]; exact hw.inlet_le
  inlet2_le := by rw [h]; exact hw.inlet2_le
  mixBelow_le := by rw [h]; exact hw.mixBelow_le

theorem mixBottom_isOk (t : Tank n) (hm : t.mixBelowFractionOnDraw ≤ 1) :
    ∃ t', t.mixBottom = .ok t' := by
  have hle : t.mixedBelowNode ≤ n + 1 := by
    unfold mixedBelowNode
    have h1 : ⌊t.numNodes * t.mixBelowFractionOnDraw⌋ ≤ ((n + 1 : ℕ) : ℤ) := by
      have : t.numNodes * t.mixBelowFractionOnDraw ≤ (((n + 1 : ℕ) : ℤ) : ℚ) := by
        have h0 := t.numNodes_pos
        calc t.numNodes * t.mixBelowFractionOnDraw ≤ t.numNodes * 1 := by gcongr
          _ = _ := by unfold numNodes; push_cast; ring
      exact (Int.floor_le_floor this).trans (by rw [Int.floor_intCast])
    omega
  unfold mixBottom
  split
  · unfold mixNodes
    by_cases h0 : t.mixedBelowNode ≤ 0
    · rw [if_pos h0]; exact ⟨_, rfl⟩
    · rw [if_neg h0, if_neg (by omega)]; exact ⟨_, rfl⟩
  · exact ⟨_, rfl⟩

theorem processDraw_ok (t t' : Tank n) (d in1 v2 in2 : ℚ) (hd : 0 < d)
    (h : t.processDraw d in1 v2 in2 = .ok t') :
    v2 ≤ d ∧ (t.drawWater d in1 v2 in2).mixBottom = .ok t' := by
  unfold processDraw at h
  rw [if_pos hd] at h
  split at h
  · cases h
  · rename_i hv
    exact ⟨not_lt.mp hv, h⟩

end Tank

/-- **C03.** Energy balance of a draw, tank without heat exchanger: heat given up by the tank
= heat carried out at the reported outlet temperature − heat brought in by the inlets. -/
theorem C03_draw_energy_balance (t t' : Tank n) (hw : t.WellFormed)
    (hx : t.hasHeatExchanger = false) (drawVolume inletT inletVol2 inletT2 : ℚ)
    (hd : 0 < drawVolume)
    (h : t.processDraw drawVolume inletT inletVol2 inletT2 = .ok t') :
    t'.volume_L = t.volume_L ∧
    tankHeat t.volume_L t.nodeTs - tankHeat t.volume_L t'.nodeTs =
      waterHeat drawVolume t'.outletT -
        (waterHeat (drawVolume - inletVol2) inletT + waterHeat inletVol2 inletT2) := by
  obtain ⟨_, hmix⟩ := Tank.processDraw_ok t t' _ _ _ _ hd h
  obtain ⟨m1, m2, _⟩ := Tank.mixBottom_ok _ _ hmix
  have hsame := Tank.drawWater_same t hw drawVolume inletT inletVol2 inletT2 hd
  obtain ⟨f1, f2, f3, _, _⟩ := Tank.sortInlets_facts t drawVolume inletT inletVol2 inletT2
  have hn := f1 hw.inlet_le hw.inlet2_le
  have hcp := hw.toConsistent.nodeCp_pos
  have hnv := hw.toConsistent.nodeVolume_pos
  obtain ⟨g1, g2⟩ := Tank.draw_spec t (t.sortInlets drawVolume inletT inletVol2 inletT2)
    (drawVolume / t.nodeVolume_L) (by positivity) hw.volume_pos.ne' hcp.ne' hn.1 hn.2
  have hvol : t'.volume_L = t.volume_L ∧
      t'.outletT = (t.drawWater drawVolume inletT inletVol2 inletT2).outletT := by
    constructor
    · rw [m1.1, hsame.1]
    · exact m1.2.2
  have hd1 := hw.toConsistent.drawCp_eq drawVolume
  refine ⟨hvol.1, ?_⟩
  rw [hw.toConsistent.tankHeat_eq, hw.toConsistent.tankHeat_eq, hvol.2, m2]
  unfold Tank.drawWater
  simp only [hx, Bool.false_eq_true, if_false]
  rw [f2] at g2
  have hc : cpWater * rhoWater * drawVolume ≠ 0 := by rw [hd1]; positivity
  have e1 : waterHeat drawVolume ((t.draw (t.sortInlets drawVolume inletT inletVol2 inletT2)
      (drawVolume / t.nodeVolume_L)).1 / (cpWater * rhoWater * drawVolume)) =
      (t.draw (t.sortInlets drawVolume inletT inletVol2 inletT2)
        (drawVolume / t.nodeVolume_L)).1 := by
    unfold waterHeat
    rw [show (4180 / 1000 * (995 / 1000) * drawVolume : ℚ) = cpWater * rhoWater * drawVolume from rfl]
    rw [mul_div_cancel₀ _ hc]
  have e2 : t.nodeCp * (drawVolume / t.nodeVolume_L) *
      ((1 - inletVol2 / drawVolume) * inletT + inletVol2 / drawVolume * inletT2) =
      waterHeat (drawVolume - inletVol2) inletT + waterHeat inletVol2 inletT2 := by
    rw [← hd1]
    unfold waterHeat cpWater rhoWater
    field_simp
  rw [e2] at g2
  rw [e1]
  linarith

/-- **C04.** After a draw (no heat exchanger, second inlet supplying a non-negative volume) all
node temperatures and the outlet temperature lie in any interval containing the initial node
temperatures and the inlet temperatures. -/
theorem C04_draw_within_range (t t' : Tank n) (hw : t.WellFormed)
    (hx : t.hasHeatExchanger = false) (drawVolume inletT inletVol2 inletT2 lo hi : ℚ)
    (hd : 0 < drawVolume) (hv2 : 0 ≤ inletVol2)
    (h : t.processDraw drawVolume inletT inletVol2 inletT2 = .ok t')
    (hT : Within t.nodeTs lo hi) (h1 : lo ≤ inletT ∧ inletT ≤ hi)
    (h2 : lo ≤ inletT2 ∧ inletT2 ≤ hi) :
    Within t'.nodeTs lo hi ∧ lo ≤ t'.outletT ∧ t'.outletT ≤ hi := by
  obtain ⟨hv, hmix⟩ := Tank.processDraw_ok t t' _ _ _ _ hd h
  obtain ⟨m1, _, m3⟩ := Tank.mixBottom_ok _ _ hmix
  obtain ⟨f1, _, f3, f4, f5⟩ := Tank.sortInlets_facts t drawVolume inletT inletVol2 inletT2
  have hn := f1 hw.inlet_le hw.inlet2_le
  have hcp := hw.toConsistent.nodeCp_pos
  have hnv := hw.toConsistent.nodeVolume_pos
  have hf := f4 (by positivity) (by rw [div_le_one hd]; exact hv)
  have hb := f5 lo hi h1 h2
  obtain ⟨g1, g2, g3⟩ := Tank.draw_bounds t (t.sortInlets drawVolume inletT inletVol2 inletT2)
    (drawVolume / t.nodeVolume_L) lo hi (by positivity) hw.volume_pos.ne' hcp hn.1 hn.2 hf.1 hf.2
    f3 hb.1 hb.2 hT
  have hd1 := hw.toConsistent.drawCp_eq drawVolume
  rw [← hd1] at g2 g3
  have hc : 0 < cpWater * rhoWater * drawVolume := by rw [hd1]; positivity
  have hw' : t.drawWater drawVolume inletT inletVol2 inletT2 =
      { (t.draw (t.sortInlets drawVolume inletT inletVol2 inletT2)
          (drawVolume / t.nodeVolume_L)).2 with
        outletT := (t.draw (t.sortInlets drawVolume inletT inletVol2 inletT2)
          (drawVolume / t.nodeVolume_L)).1 / (cpWater * rhoWater * drawVolume) } := by
    unfold Tank.drawWater
    simp only [hx, Bool.false_eq_true, if_false]
  refine ⟨m3 lo hi (by rw [hw']; exact g1), ?_⟩
  rw [m1.2.2, hw']
  simp only
  rw [le_div_iff₀ hc, div_le_iff₀ hc]
  constructor <;> linarith

/-- Non-vacuity of C03/C04: the sample tank, a draw of 1.4 tank volumes split over two inlets. -/
example : ∃ t', sampleTank.processDraw 280 12 100 18 = .ok t' ∧ Within sampleTank.nodeTs 10 50 ∧
    t'.nodeTs ≠ sampleTank.nodeTs := by
  unfold Within; decide +kernel

/-- **C05.** A heat-exchanger draw: heat gained by the water line equals heat lost by the tank,
and the delivered temperature lies between any bounds on inlet and node temperatures. -/
theorem C05_heat_exchanger_draw (t t' : Tank n) (hw : t.WellFormed)
    (hx : t.hasHeatExchanger = true) (he0 : 0 ≤ t.nodeHeatExchangerEffectiveness)
    (he1 : t.nodeHeatExchangerEffectiveness ≤ 1)
    (drawVolume inletT inletVol2 inletT2 : ℚ) (hd : 0 < drawVolume)
    (h : t.processDraw drawVolume inletT inletVol2 inletT2 = .ok t') :
    t'.volume_L = t.volume_L ∧
    waterHeat drawVolume t'.outletT - waterHeat drawVolume inletT =
      tankHeat t.volume_L t.nodeTs - tankHeat t.volume_L t'.nodeTs ∧
    ∀ lo hi, Within t.nodeTs lo hi → lo ≤ inletT → inletT ≤ hi →
      lo ≤ t'.outletT ∧ t'.outletT ≤ hi := by
  obtain ⟨hv, hmix⟩ := Tank.processDraw_ok t t' _ _ _ _ hd h
  obtain ⟨m1, m2, _⟩ := Tank.mixBottom_ok _ _ hmix
  have hsame := Tank.drawWater_same t hw drawVolume inletT inletVol2 inletT2 hd
  have hcp := hw.toConsistent.nodeCp_pos
  have hc : 0 < cpWater * rhoWater * drawVolume := by
    have h1 : 0 < cpWater := by norm_num [cpWater]
    have h2 : 0 < rhoWater := by norm_num [rhoWater]
    positivity
  have hs := Tank.hxLoop_sum (n := n) (cpWater * rhoWater * drawVolume) t.nodeCp
    t.nodeHeatExchangerEffectiveness hc.ne' hcp.ne' 0 (n + 1) (by omega) inletT t.nodeTs
  have ho : t'.outletT = (t.drawWater drawVolume inletT inletVol2 inletT2).outletT := m1.2.2
  refine ⟨by rw [m1.1, hsame.1], ?_, ?_⟩
  · rw [hw.toConsistent.tankHeat_eq, hw.toConsistent.tankHeat_eq, ho, m2]
    unfold Tank.drawWater
    simp only [hx, if_true]
    unfold waterHeat
    rw [show (4180 / 1000 * (995 / 1000) * drawVolume : ℚ) = cpWater * rhoWater * drawVolume from rfl]
    linarith
  · intro lo hi hT hlo hhi
    rw [ho]
    unfold Tank.drawWater
    simp only [hx, if_true]
    exact Tank.hxLoop_outlet _ _ _ lo hi hc.ne' he0 he1 0 (n + 1) (by omega) inletT t.nodeTs
      ⟨hlo, hhi⟩ (fun i _ => hT i)

/-- **C05 (nodes).** If the line draws no more heat capacity than a node holds (times the
effectiveness), the node temperatures also stay in range. -/
theorem C05_heat_exchanger_nodes (t t' : Tank n) (hw : t.WellFormed)
    (hx : t.hasHeatExchanger = true) (he0 : 0 ≤ t.nodeHeatExchangerEffectiveness)
    (he1 : t.nodeHeatExchangerEffectiveness ≤ 1)
    (drawVolume inletT inletVol2 inletT2 lo hi : ℚ) (hd : 0 < drawVolume)
    (hcap : t.nodeHeatExchangerEffectiveness * drawVolume ≤ t.nodeVolume_L)
    (h : t.processDraw drawVolume inletT inletVol2 inletT2 = .ok t')
    (hT : Within t.nodeTs lo hi) (hlo : lo ≤ inletT) (hhi : inletT ≤ hi) :
    Within t'.nodeTs lo hi := by
  obtain ⟨hv, hmix⟩ := Tank.processDraw_ok t t' _ _ _ _ hd h
  obtain ⟨_, _, m3⟩ := Tank.mixBottom_ok _ _ hmix
  have hcp := hw.toConsistent.nodeCp_pos
  have h1 : 0 < cpWater := by norm_num [cpWater]
  have h2 : 0 < rhoWater := by norm_num [rhoWater]
  apply m3
  unfold Tank.drawWater
  simp only [hx, if_true]
  exact Tank.hxLoop_nodes _ _ _ lo hi (by positivity) hcp he0 he1
      (by
        rw [hw.nodeCp]
        have := mul_le_mul_of_nonneg_left hcap (mul_pos h1 h2).le
        linarith) 0 (n + 1) (by omega) inletT t.nodeTs ⟨hlo, hhi⟩ hT

/-- The sample tank with a heat exchanger. -/
def sampleTankHX : Tank 3 := { sampleTank with hasHeatExchanger := true, mixesOnDraw := false }

theorem sampleTankHX_wellFormed : sampleTankHX.WellFormed :=
  { volume_pos := sampleTank_wellFormed.volume_pos, nodeVolume := sampleTank_wellFormed.nodeVolume,
    nodeCp := sampleTank_wellFormed.nodeCp, inlet_le := sampleTank_wellFormed.inlet_le,
    inlet2_le := sampleTank_wellFormed.inlet2_le, mixBelow_le := sampleTank_wellFormed.mixBelow_le }

/-- Non-vacuity of C05. -/
example : sampleTankHX.hasHeatExchanger = true ∧
    0 ≤ sampleTankHX.nodeHeatExchangerEffectiveness ∧
    sampleTankHX.nodeHeatExchangerEffectiveness ≤ 1 ∧
    sampleTankHX.nodeHeatExchangerEffectiveness * 80 ≤ sampleTankHX.nodeVolume_L ∧
    ∃ t', sampleTankHX.processDraw 80 5 0 0 = .ok t' ∧ t'.nodeTs ≠ sampleTankHX.nodeTs ∧
      t'.outletT ≠ 5 := by
  decide +kernel

/-- **C05, finding.** For large draws the code lets a tank node fall below every temperature
involved: a draw of four node volumes at effectiveness 1/2 through a tank at 10–50 °C with inlet
5 °C leaves a node below 5 °C. -/
theorem C05_nodes_can_undershoot :
    ∃ t : Tank 3, t.WellFormed ∧ t.hasHeatExchanger = true ∧
      0 ≤ t.nodeHeatExchangerEffectiveness ∧ t.nodeHeatExchangerEffectiveness ≤ 1 ∧
      Within t.nodeTs 5 50 ∧
      ∃ t', t.processDraw 200 5 0 0 = .ok t' ∧ ∃ k, t'.nodeTs k < 5 := by
  refine ⟨sampleTankHX, sampleTankHX_wellFormed, rfl, by decide +kernel, by decide +kernel, ?_,
    by decide +kernel⟩
  unfold Within; decide +kernel

/-- **C06.** Standby losses and conduction: heat content falls by exactly the increase of the
reported standby-loss total; the tank's settings and outlet temperature are unchanged. -/
theorem C06_losses_accounted (t t' : Tank n) (hc : t.Consistent) (hours seconds amb : ℚ)
    (h : t.processLosses hours seconds amb = .ok t') :
    t'.toTankCfg = t.toTankCfg ∧ t'.outletT = t.outletT ∧
    tankHeat t.volume_L t.nodeTs - tankHeat t.volume_L t'.nodeTs =
      t'.standbyLosses_kJ - t.standbyLosses_kJ := by
  obtain ⟨h1, h2, h3, h4, _, _⟩ := Tank.processLosses_ok t t' hc.volume_pos.ne' _ _ _ h
  refine ⟨h1, h2, ?_⟩
  have := Tank.nextNodes_sum t hours seconds amb hc.nodeCp_pos.ne'
  rw [hc.tankHeat_eq, hc.tankHeat_eq, h3, h4]
  linarith

/-- The standby loss specified physically: ends lose `UA·topFraction·hours·(T − ambient)`, the
wall (with fittings) loses evenly over the nodes. -/
def Spec.standbyLoss {n : ℕ} (UA topFrac sideFrac fittingsUA hours amb : ℚ)
    (T : Fin (n + 1) → ℚ) : ℚ :=
  UA * topFrac * hours * (T 0 - amb) + UA * topFrac * hours * (T (Fin.last n) - amb) +
    (UA * sideFrac + fittingsUA) * hours * ((∑ k, T k) / (n + 1) - amb)

/-- **C06.** The reported loss is the physical one: conductance times time times temperature
difference, summed over bottom, top and wall. -/
theorem C06_losses_value (t t' : Tank n) (hc : t.Consistent) (hours seconds amb : ℚ)
    (h : t.processLosses hours seconds amb = .ok t') :
    t'.standbyLosses_kJ - t.standbyLosses_kJ =
      Spec.standbyLoss t.UA t.fracAreaTop t.fracAreaSide t.fittingsUA hours amb t.nodeTs := by
  obtain ⟨_, _, h3, _⟩ := Tank.processLosses_ok t t' hc.volume_pos.ne' _ _ _ h
  rw [h3]
  unfold Tank.stepLosses Tank.lossBottom Tank.lossTop Tank.lossSide Tank.endLossRate
    Tank.sideLossRate Spec.standbyLoss
  rw [← Finset.mul_sum, Finset.sum_sub_distrib]
  have := t.numNodes_pos
  unfold Tank.numNodes at *
  simp only [Finset.sum_const, Finset.card_univ, Fintype.card_fin, nsmul_eq_mul]
  push_cast
  field_simp
  ring

/-- **C06.** A tank uniformly at ambient temperature loses nothing and keeps its temperatures. -/
theorem C06_at_ambient_no_change (t t' : Tank n) (hours seconds amb : ℚ)
    (hamb : ∀ k, t.nodeTs k = amb) (h : t.processLosses hours seconds amb = .ok t') :
    t' = t := by
  have e1 : t.afterLosses hours amb = t.nodeTs := by
    funext k
    rw [Tank.afterLosses_apply, hamb k]
    ring
  have e2 : t.stepLosses hours amb = 0 := by
    unfold Tank.stepLosses Tank.lossBottom Tank.lossTop Tank.lossSide
    simp [hamb]
  have e3 : ∀ tau k, Tank.conductNode tau t.nodeTs k = 0 := by
    intro tau k
    unfold Tank.conductNode
    split_ifs <;> simp [hamb]
    ring_nf
    simp
  have hs : Stratified t.nodeTs := fun i j _ => by rw [hamb, hamb]
  have e4 : t.mixInversions = t := (C02_mixing_idempotent t).1 hs
  have e5 : t.nextNodes hours seconds amb = t.nodeTs := by
    funext k
    unfold Tank.nextNodes
    rw [e1, e3]
    simp
  unfold Tank.processLosses at h
  rw [e2, e5] at h
  split at h
  · cases h
  · injection h with h
    rw [← h, add_zero]
    exact e4

/-- Non-vacuity of C06: the sample tank loses heat in a one-minute step. -/
example : ∃ t', sampleTank.processLosses (1 / 60) 60 15 = .ok t' ∧
    t'.standbyLosses_kJ > 0 := by
  decide +kernel

/-- **C07 (partial).** Full statement: conduction alone (no insulation losses) never produces a
temperature outside the initial range whenever the step is accepted by the stability check.
Proved: (a) for every stratified profile, for every accepted step; (b) for every profile when the
conduction number is at most 1/2. Missing: unstratified profiles with conduction number in
(1/2, 1], for which the statement is false (`C07_extreme_created`). -/
theorem C07_conduction_within_range_partial (t t' : Tank n) (hv : t.volume_L ≠ 0)
    (hours seconds amb lo hi : ℚ) (hs : 0 ≤ seconds) (hUA : t.UA = 0) (hfit : t.fittingsUA = 0)
    (h : t.processLosses hours seconds amb = .ok t') (hT : Within t.nodeTs lo hi)
    (hcase : Stratified t.nodeTs ∨ t.tau seconds ≤ 1 / 2) :
    Within t'.nodeTs lo hi := by
  have e1 : t.afterLosses hours amb = t.nodeTs := by
    funext k
    rw [Tank.afterLosses_apply]
    simp [Tank.endLossRate, Tank.sideLossRate, hUA, hfit]
  obtain ⟨_, _, _, _, h5, h6⟩ := Tank.processLosses_ok t t' hv _ _ _ h
  apply h5
  intro k
  unfold Tank.nextNodes
  rw [e1]
  by_cases hd : t.doConduction = true
  · simp only [hd, if_true]
    rcases hcase with hst | ht
    · exact Tank.conductNode_bounds_mono _ lo hi (t.tau_nonneg seconds hs)
        (not_lt.mp (fun hc => h6 ⟨hd, hc⟩)) _ ((stratified_iff_monotone _).mp hst) hT k
    · have := Tank.lossConduct_bounds (t.tau seconds) (n := n) lo hi
        (t.tau_nonneg seconds hs) t.nodeTs lo 0 le_rfl (by linarith) hT
        ⟨le_rfl, (hT 0).1.trans (hT 0).2⟩ k
      simpa using this
  · simpa [hd] using hT k

/-- **C07, general step.** With insulation losses too, nodes stay between the extremes of tank and
surroundings if loss and conduction numbers are small enough for an explicit step. -/
theorem C07_losses_within_range (t t' : Tank n) (hc : t.Consistent)
    (hours seconds amb lo hi : ℚ) (hs : 0 ≤ seconds) (hh : 0 ≤ hours)
    (hUA : 0 ≤ t.UA * t.fracAreaTop) (hside : 0 ≤ t.UA * t.fracAreaSide + t.fittingsUA)
    (hsmall : 2 * t.tau seconds +
      (2 * (t.UA * t.fracAreaTop) + (t.UA * t.fracAreaSide + t.fittingsUA) / (n + 1)) * hours /
        t.nodeCp ≤ 1)
    (h : t.processLosses hours seconds amb = .ok t') (hT : Within t.nodeTs lo hi)
    (ha : lo ≤ amb ∧ amb ≤ hi) :
    Within t'.nodeTs lo hi := by
  have hcp := hc.nodeCp_pos
  have hstep : ∀ tau, 0 ≤ tau → tau ≤ t.tau seconds → ∀ k,
      lo ≤ t.afterLosses hours amb k + Tank.conductNode tau t.nodeTs k ∧
      t.afterLosses hours amb k + Tank.conductNode tau t.nodeTs k ≤ hi := by
    intro tau ht0 ht1 k
    rw [Tank.afterLosses_apply]
    have hE : 0 ≤ t.endLossRate := hUA
    have hS : 0 ≤ t.sideLossRate := div_nonneg hside t.numNodes_pos.le
    have hc0 : 0 ≤ ((if k = 0 then t.endLossRate else 0) +
        (if k = Fin.last n then t.endLossRate else 0) + t.sideLossRate) * hours / t.nodeCp := by
      apply div_nonneg _ hcp.le
      apply mul_nonneg _ hh
      split_ifs <;> linarith
    have hc1 : ((if k = 0 then t.endLossRate else 0) +
        (if k = Fin.last n then t.endLossRate else 0) + t.sideLossRate) * hours / t.nodeCp ≤
        (2 * (t.UA * t.fracAreaTop) + (t.UA * t.fracAreaSide + t.fittingsUA) / (n + 1)) * hours /
        t.nodeCp := by
      apply div_le_div_of_nonneg_right _ hcp.le
      apply mul_le_mul_of_nonneg_right _ hh
      have : t.sideLossRate = (t.UA * t.fracAreaSide + t.fittingsUA) / (n + 1) := rfl
      rw [← this]
      have : t.endLossRate = t.UA * t.fracAreaTop := rfl
      rw [← this]
      split_ifs <;> linarith
    exact Tank.lossConduct_bounds tau lo hi ht0 t.nodeTs amb _ hc0 (by linarith) hT ha k
  obtain ⟨_, _, _, _, h5, _⟩ := Tank.processLosses_ok t t' hc.volume_pos.ne' _ _ _ h
  apply h5
  intro k
  unfold Tank.nextNodes
  by_cases hd : t.doConduction = true
  · simp only [hd, if_true]
    exact hstep _ (t.tau_nonneg seconds hs) le_rfl k
  · have := hstep 0 le_rfl (t.tau_nonneg seconds hs) k
    have e : Tank.conductNode 0 t.nodeTs k = 0 := by
      unfold Tank.conductNode; split_ifs <;> simp
    rw [e] at this
    simpa [hd] using this

/-- An uninsulated-loss-free tank with inversion mixing off, thin nodes, inverted profile. -/
def spikeTank : Tank 2 where
  volume_L := 3
  nodeTs := ![0, 100, 0]
  standbyLosses_kJ := 0
  mixesOnDraw := false
  mixBelowFractionOnDraw := 0
  doInversionMixing := false
  doConduction := true
  volumeFixed := false
  nodeVolume_L := 1
  nodeCp := cpWater * rhoWater
  nodeHeight_m := 1 / 200
  fracAreaTop := 1 / 10
  fracAreaSide := 8 / 10
  UA := 0
  fittingsUA := 0
  inletHeight := 0
  inlet2Height := 0
  hasHeatExchanger := false
  heatExchangerEffectiveness := 0
  nodeHeatExchangerEffectiveness := 0
  outletT := 0

/-- **C07, finding.** A step accepted by the stability check (conduction number ≤ 1) can create a
temperature below every node: the middle of 0/100/0 °C drops below 0 °C. -/
theorem C07_extreme_created :
    ∃ (t : Tank 2) (seconds : ℚ), t.Consistent ∧ 0 ≤ seconds ∧ t.UA = 0 ∧ t.fittingsUA = 0 ∧
      t.tau seconds ≤ 1 ∧ Within t.nodeTs 0 100 ∧
      ∃ t', t.processLosses (seconds / 3600) seconds 20 = .ok t' ∧ ¬ Within t'.nodeTs 0 100 := by
  refine ⟨spikeTank, 60, ⟨by decide +kernel, by decide +kernel, by decide +kernel⟩,
    by norm_num, rfl, rfl, by decide +kernel, ?_, ?_⟩
  · unfold Within; decide +kernel
  · unfold Within; decide +kernel

/-- Non-vacuity of C07: a stratified profile for which a two-minute step has conduction number
above one half. -/
example : (1 / 2 : ℚ) < ({ spikeTank with nodeTs := ![10, 20, 50] } : Tank 2).tau 60 ∧
    Stratified ({ spikeTank with nodeTs := ![10, 20, 50] } : Tank 2).nodeTs ∧
    ∃ t', ({ spikeTank with nodeTs := ![10, 20, 50] } : Tank 2).processLosses (1 / 60) 60 15 =
      .ok t' ∧ t'.nodeTs ≠ ![10, 20, 50] := by
  refine ⟨by decide +kernel, by unfold Stratified; decide +kernel, by decide +kernel⟩

/-- **C08.** The complete node update balances energy: final heat content = initial content
+ inlet heat − outlet heat − standby losses added to the reported total. With a heat exchanger
the line takes its water from the first inlet only. -/
theorem C08_update_energy_balance (t t' : Tank n) (hw : t.WellFormed)
    (hours seconds drawVolume inletT amb inletVol2 inletT2 : ℚ) (hd : 0 ≤ drawVolume)
    (heff : t.hasHeatExchanger = true → 0 ≤ t.nodeHeatExchangerEffectiveness ∧
      t.nodeHeatExchangerEffectiveness ≤ 1)
    (h : t.updateNodes hours seconds drawVolume inletT amb inletVol2 inletT2 = .ok t') :
    tankHeat t.volume_L t'.nodeTs = tankHeat t.volume_L t.nodeTs
      + (if drawVolume = 0 then 0
         else if t.hasHeatExchanger then waterHeat drawVolume inletT
         else waterHeat (drawVolume - inletVol2) inletT + waterHeat inletVol2 inletT2)
      - (if drawVolume = 0 then 0 else waterHeat drawVolume t'.outletT)
      - (t'.standbyLosses_kJ - t.standbyLosses_kJ) ∧
    t'.WellFormed ∧ t'.volume_L = t.volume_L := by
  unfold Tank.updateNodes at h
  split at h
  swap
  · cases h
  rename_i t1 h1
  rcases eq_or_lt_of_le hd with rfl | hd
  · -- no draw
    have e : t1 = t := by
      unfold Tank.processDraw at h1
      simp at h1
      exact h1.symm
    subst e
    obtain ⟨g1, _, g2⟩ := C06_losses_accounted t1 t' hw.toConsistent hours seconds amb h
    exact ⟨by simp only [if_true]; linarith, hw.of_cfg g1, by rw [g1]⟩
  · -- draw
    obtain ⟨_, hmix⟩ := Tank.processDraw_ok t t1 _ _ _ _ hd h1
    obtain ⟨m1, _, _⟩ := Tank.mixBottom_ok _ _ hmix
    have hsame := Tank.drawWater_same t hw drawVolume inletT inletVol2 inletT2 hd
    have hcfg : t1.toTankCfg = t.toTankCfg := m1.1.trans hsame.1
    have hw1 : t1.WellFormed := hw.of_cfg hcfg
    obtain ⟨g1, hout, g2⟩ := C06_losses_accounted t1 t' hw1.toConsistent hours seconds amb h
    have hvol : t1.volume_L = t.volume_L := by rw [hcfg]
    have hsb : t1.standbyLosses_kJ = t.standbyLosses_kJ := m1.2.1.trans hsame.2
    refine ⟨?_, hw1.of_cfg g1, by rw [g1]; exact hvol⟩
    rw [hvol, hsb] at g2
    rw [hout]
    simp only [hd.ne', if_false]
    by_cases hx : t.hasHeatExchanger = true
    · have := (C05_heat_exchanger_draw t t1 hw hx (heff hx).1 (heff hx).2 _ _ _ _ hd h1).2.1
      simp only [hx, if_true]
      linarith
    · have hx' : t.hasHeatExchanger = false := by simpa using hx
      have := (C03_draw_energy_balance t t1 hw hx' _ _ _ _ hd h1).2
      simp only [hx', Bool.false_eq_true, if_false]
      linarith

/-- Non-vacuity of C08: a full update of the sample tank with a two-inlet draw succeeds. -/
example : ∃ t', sampleTank.updateNodes (1 / 60) 60 70 12 20 30 18 = .ok t' ∧
    t'.nodeTs ≠ sampleTank.nodeTs ∧ t'.standbyLosses_kJ ≠ 0 := by
  decide +kernel

/-- **C09.** For a well-formed tank, the update reports an error exactly for an over-large second
inlet volume on a positive draw or a failed conduction stability condition; otherwise it
completes. (No other failure is possible.) -/
theorem C09_error_iff (t : Tank n) (hw : t.WellFormed)
    (hours seconds drawVolume inletT amb inletVol2 inletT2 : ℚ) :
    ((∃ e, t.updateNodes hours seconds drawVolume inletT amb inletVol2 inletT2 = .error e) ↔
      (0 < drawVolume ∧ drawVolume < inletVol2) ∨
      (t.doConduction = true ∧ 1 < 2 * kWater * seconds /
        ((cpWater * 1000) * (rhoWater * 1000) * t.nodeHeight_m ^ 2))) ∧
    (∀ e, t.updateNodes hours seconds drawVolume inletT amb inletVol2 inletT2 = .error e →
      e = .error) := by
  have htau : ∀ u : Tank n, u.nodeHeight_m = t.nodeHeight_m → u.tau seconds =
      2 * kWater * seconds / ((cpWater * 1000) * (rhoWater * 1000) * t.nodeHeight_m ^ 2) := by
    intro u hu
    unfold Tank.tau
    rw [hu]
    ring
  have hloss : ∀ u : Tank n, u.nodeHeight_m = t.nodeHeight_m → u.doConduction = t.doConduction →
      ((∃ e, u.processLosses hours seconds amb = .error e) ↔
        (t.doConduction = true ∧ 1 < 2 * kWater * seconds /
        ((cpWater * 1000) * (rhoWater * 1000) * t.nodeHeight_m ^ 2))) ∧
      (∀ e, u.processLosses hours seconds amb = .error e → e = .error) := by
    intro u hu hc
    unfold Tank.processLosses
    simp only [htau u hu, hc, gt_iff_lt]
    split
    · rename_i h1
      exact ⟨⟨fun _ => h1, fun _ => ⟨_, rfl⟩⟩, fun e he => by cases he; rfl⟩
    · rename_i h1
      refine ⟨⟨?_, fun h => absurd h h1⟩, ?_⟩
      · rintro ⟨e, he⟩
        cases he
      · intro e he
        cases he
  by_cases hd : 0 < drawVolume
  · by_cases hv : drawVolume < inletVol2
    · have : t.processDraw drawVolume inletT inletVol2 inletT2 = .error .error := by
        unfold Tank.processDraw
        rw [if_pos hd, if_pos hv]
      unfold Tank.updateNodes
      rw [this]
      exact ⟨⟨fun _ => Or.inl ⟨hd, hv⟩, fun _ => ⟨_, rfl⟩⟩, fun e he => by cases he; rfl⟩
    · -- the draw succeeds
      have hsame0 := Tank.drawWater_same t hw drawVolume inletT inletVol2 inletT2 hd
      obtain ⟨u, hu0⟩ := Tank.mixBottom_isOk (t.drawWater drawVolume inletT inletVol2 inletT2)
        (by rw [hsame0.1]; exact hw.mixBelow_le)
      have hu : t.processDraw drawVolume inletT inletVol2 inletT2 = .ok u := by
        unfold Tank.processDraw
        rw [if_pos hd, if_neg hv, hu0]
      have hsame : u.nodeHeight_m = t.nodeHeight_m ∧ u.doConduction = t.doConduction := by
        obtain ⟨m1, _, _⟩ := Tank.mixBottom_ok _ _ hu0
        rw [m1.1, hsame0.1]
        exact ⟨rfl, rfl⟩
      unfold Tank.updateNodes
      rw [hu]
      simp only
      obtain ⟨l1, l2⟩ := hloss u hsame.1 hsame.2
      refine ⟨l1.trans ?_, l2⟩
      constructor
      · exact Or.inr
      · rintro (⟨_, h⟩ | h)
        · exact absurd h hv
        · exact h
  · have : t.processDraw drawVolume inletT inletVol2 inletT2 = .ok t := by
      unfold Tank.processDraw
      rw [if_neg hd]
    unfold Tank.updateNodes
    rw [this]
    simp only
    obtain ⟨l1, l2⟩ := hloss t rfl rfl
    refine ⟨l1.trans ?_, l2⟩
    constructor
    · exact Or.inr
    · rintro (⟨h, _⟩ | h)
      · exact absurd h hd
      · exact h

/-- Non-vacuity of C09: both kinds of outcome occur for the well-formed sample tank. -/
example : sampleTank.updateNodes (1 / 60) 60 10 12 20 11 18 = .error .error ∧
    sampleTank.updateNodes 3600 (3600 * 3600) 0 12 20 0 18 = .error .error := by
  decide +kernel

/-- **C09, finding.** A bottom-mixing fraction above one (not excluded by the tank's own setters)
makes a draw read past the node vector. -/
theorem C09_mix_fraction_out_of_range :
    ({ sampleTank with mixBelowFractionOnDraw := 3 / 2 } : Tank 3).updateNodes (1 / 60) 60 10 12 20
      0 18 = .error .ub := by
  decide +kernel

end HPWH
