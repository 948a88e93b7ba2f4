import Verif.Props.Step

/-! # C32, C34: the built-in energy check and runs of several steps -/

namespace HPWH

open Spec Units

variable {n k : ℕ}

/-! ## C32 -/

/-- **C32.** After any step whose heat is accounted for, the built-in check accepts with any
non-negative tolerance, given the volumes and temperatures of the step's draw and the heat content
before it. (Of a draw of `u.draw_L`, `u.inletVol2_L` enters by the second inlet; with a heat exchanger
the second inlet must not be used, see `C32_exchanger_second_inlet_rejected`.) -/
theorem C32_energy_check_accepts (m : Libm) (hexp : ∀ x, 0 ≤ m.exp x) (fuel : ℕ) (s s' : Sim n k)
    (u : Sim.StepInput) (lo : ℚ) (hi : WithTop ℚ) (tol : ℚ) (ha : s.Accountable u lo hi)
    (h2 : u.draw_L = 0 → u.inletVol2_L = 0)
    (hx : s.tank.hasHeatExchanger = true → u.inletVol2_L = 0) (htol : 0 ≤ tol)
    (h : Sim.runOneStep m fuel s u = .ok s') :
    s'.isEnergyBalanced (u.draw_L - u.inletVol2_L) s.inletT u.inletVol2_L u.inletT2
      s.tank.heatContent tol = true := by
  obtain ⟨b, -, -, -, hc, -⟩ := step_facts m hexp fuel s s' u lo hi ha h
  have hr := C33_energy_from_environment m fuel s s' u h
  have hw := ha.wellFormed
  have key : ∀ t : Tank n, t.volume_L = s.tank.volume_L →
      t.heatContent = tankHeat s.tank.volume_L t.nodeTs := by
    intro t ht
    rw [Tank.heatContent_eq, ht]
  have e1 := key s.tank rfl
  have e2 := key s'.tank (by rw [hc])
  have hsum : ∑ i, KWH_TO_KJ (s'.st i).energyInput_kWh =
      3600 * ∑ i, (s'.st i).energyInput_kWh := by
    rw [Finset.mul_sum]
    refine Finset.sum_congr rfl fun i _ => ?_
    unfold KWH_TO_KJ secPerHr secPerMin minPerHr
    ring
  have hwater : cpWater * rhoWater * (u.draw_L - u.inletVol2_L) * (s'.tank.outletT - s.inletT) +
      cpWater * rhoWater * u.inletVol2_L * (s'.tank.outletT - u.inletT2) =
      (if u.draw_L = 0 then 0 else waterHeat u.draw_L s'.tank.outletT) - s.inletHeat u := by
    unfold Sim.inletHeat waterHeat cpWater rhoWater
    by_cases hd : u.draw_L = 0
    · rw [if_pos hd, if_pos hd, h2 hd, hd]; ring
    · rw [if_neg hd, if_neg hd]
      split_ifs with hh
      · rw [hx hh]; ring
      · ring
  unfold Sim.isEnergyBalanced
  rw [hwater, hsum]
  have e : s'.tank.heatContent - (s.tank.heatContent + 3600 * ∑ i, (s'.st i).energyInput_kWh +
      KWH_TO_KJ s'.extraEnergyInput_kWh + KWH_TO_KJ s'.energyRemoved_kWh -
      KWH_TO_KJ s'.standbyLosses_kWh -
      ((if u.draw_L = 0 then 0 else waterHeat u.draw_L s'.tank.outletT) - s.inletHeat u)) = 0 := by
    rw [e1, e2, b, hr]
    unfold KWH_TO_KJ secPerHr secPerMin minPerHr
    ring
  simp only [e, abs_zero, zero_div]
  simpa using htol

/-- The hypotheses are met by a step in which water is drawn and heat added. -/
example : sampleSim.Accountable sampleInput 0 ⊤ ∧ (sampleInput.draw_L = 0 → sampleInput.inletVol2_L = 0) ∧
    (sampleSim.tank.hasHeatExchanger = true → sampleInput.inletVol2_L = 0) ∧
    ∃ s', Sim.runOneStep sampleLibm 5 sampleSim sampleInput = .ok s' ∧
      s'.tank.heatContent ≠ sampleSim.tank.heatContent :=
  ⟨sampleSim_accountable, by decide +kernel⟩

/-- The sample system with a heat exchanger. -/
def exchangerSim : Sim 3 2 :=
  { sampleSim with tank := { sampleSim.tank with
      hasHeatExchanger := true
      nodeHeatExchangerEffectiveness := 1 / 2 } }

/-- A draw of 8 litres of which 6 enter by the second inlet at 40 °C. -/
def secondInletInput : Sim.StepInput := { sampleInput with inletVol2_L := 6, inletT2 := 40 }

/-- **C32, finding.** With a heat exchanger a step that uses the second inlet is rejected: the tank
takes all the water from the first inlet, the check does not. -/
theorem C32_exchanger_second_inlet_rejected :
    ∃ s', Sim.runOneStep sampleLibm 5 exchangerSim secondInletInput = .ok s' ∧
      s'.isEnergyBalanced (secondInletInput.draw_L - secondInletInput.inletVol2_L)
        exchangerSim.inletT secondInletInput.inletVol2_L secondInletInput.inletT2
        exchangerSim.tank.heatContent (1 / 1000) = false := by
  decide +kernel

/-! ## C34 -/

theorem runLoop_ok (m : Libm) (fuel : ℕ) : ∀ (us : List Sim.RunInput) (s0 : Sim n k)
    (a : Sim.RunSums k) (r : Sim n k × Sim.RunSums k),
    Sim.runLoop m fuel us s0 a = .ok r ↔ ∃ s : ℕ → Sim n k, s 0 = s0 ∧
      Sim.StepsThrough m fuel us s ∧ r.1 = s us.length ∧
      r.2.removed = a.removed + ∑ t : Fin us.length, (s (t + 1)).energyRemoved_kWh ∧
      r.2.standby = a.standby + ∑ t : Fin us.length, (s (t + 1)).standbyLosses_kWh ∧
      r.2.outlet = a.outlet + ∑ t : Fin us.length, (s (t + 1)).tank.outletT * us[t].draw_L ∧
      r.2.draw = a.draw + ∑ t : Fin us.length, us[t].draw_L ∧
      (∀ i, r.2.runtime i = a.runtime i +
        ∑ t : Fin us.length, ((s (t + 1)).st i).runtime_min) ∧
      (∀ i, r.2.input i = a.input i +
        ∑ t : Fin us.length, ((s (t + 1)).st i).energyInput_kWh) ∧
      (∀ i, r.2.output i = a.output i +
        ∑ t : Fin us.length, ((s (t + 1)).st i).energyOutput_kWh) := by
  intro us
  induction us with
  | nil =>
    intro s0 a r
    constructor
    · intro h
      rw [← Except.ok.inj h]
      exact ⟨fun _ => s0, rfl, fun t => t.elim0, rfl, by simp⟩
    · rintro ⟨s, h0, -, h1, h2⟩
      simp only [List.length_nil, Finset.univ_eq_empty, Finset.sum_empty, add_zero] at h1 h2
      obtain ⟨b1, b2, b3, b4, b5, b6, b7⟩ := h2
      rw [Sim.runLoop, ← h0, ← h1]
      congr 1
      obtain ⟨x, y⟩ := r
      cases y
      cases a
      simp only [Prod.mk.injEq, true_and, Sim.RunSums.mk.injEq] at *
      exact ⟨b1.symm, b2.symm, b3.symm, b4.symm, funext fun i => (b5 i).symm,
        funext fun i => (b6 i).symm, funext fun i => (b7 i).symm⟩
  | cons u us ih =>
    intro s0 a r
    rw [Sim.runLoop, bind_ok_iff]
    constructor
    · rintro ⟨s1, h1, h⟩
      obtain ⟨s, e0, e1, e2, b1, b2, b3, b4, b5, b6, b7⟩ := (ih _ _ _).mp h
      refine ⟨fun t => match t with | 0 => s0 | t + 1 => s t, rfl, ?_, e2, ?_⟩
      · intro t
        refine Fin.cases ?_ (fun t => ?_) t
        · change Sim.runOneStepAt m fuel s0 u = .ok (s 0)
          rw [e0]; exact h1
        · exact e1 t
      · simp only [List.length_cons, Fin.sum_univ_succ, b1, b2, b3, b4, b5, b6, b7, Sim.RunSums.add]
        simp only [← e0, Fin.val_zero, Fin.val_succ]
        refine ⟨?_, ?_, ?_, ?_, fun i => ?_, fun i => ?_, fun i => ?_⟩ <;>
          simp [add_assoc]
    · rintro ⟨s, e0, e1, e2, b⟩
      have h1 : Sim.runOneStepAt m fuel (s 0) u = .ok (s 1) := e1 0
      refine ⟨s 1, by rw [← e0]; exact h1, (ih _ _ _).mpr ⟨fun t => s (t + 1), rfl,
        fun t => e1 t.succ, e2, ?_⟩⟩
      simp only [List.length_cons, Fin.sum_univ_succ] at b
      obtain ⟨b1, b2, b3, b4, b5, b6, b7⟩ := b
      simp only [Sim.RunSums.add, b1, b2, b3, b4, b5, b6, b7]
      refine ⟨?_, ?_, ?_, ?_, fun i => ?_, fun i => ?_, fun i => ?_⟩ <;>
        simp [add_assoc]

/-- **C34.** Running several steps is the same as running them one by one: it succeeds with `s'`
exactly when the single steps succeed one after the other, some water is drawn, and `s'` is the last
state with summed energies, losses and run times and the draw-weighted mean outlet temperature. -/
theorem C34_run_aggregates_steps (m : Libm) (fuel : ℕ) (s0 s' : Sim n k) (us : List Sim.RunInput) :
    Sim.runNSteps m fuel s0 us = .ok s' ↔ ∃ s : ℕ → Sim n k, s 0 = s0 ∧
      Sim.StepsThrough m fuel us s ∧ ∑ t : Fin us.length, us[t].draw_L ≠ 0 ∧
      Sim.Aggregates us s s' := by
  unfold Sim.runNSteps
  rw [bind_ok_iff]
  constructor
  · rintro ⟨r, hr, h⟩
    obtain ⟨s, e0, e1, e2, b1, b2, b3, b4, b5, b6, b7⟩ := (runLoop_ok _ _ _ _ _ _).mp hr
    simp only [zero_add] at b1 b2 b3 b4 b5 b6 b7
    split_ifs at h with hd
    rw [b4] at hd
    refine ⟨s, e0, e1, hd, ?_⟩
    rw [← Except.ok.inj h]
    exact ⟨by rw [e2], fun i => by rw [e2]; exact ⟨rfl, rfl⟩, b1, b2, by rw [← b3, ← b4], b5, b6, b7⟩
  · rintro ⟨s, e0, e1, hd, ha⟩
    refine ⟨(s us.length,
      { removed := ∑ t : Fin us.length, (s (t + 1)).energyRemoved_kWh
        standby := ∑ t : Fin us.length, (s (t + 1)).standbyLosses_kWh
        outlet := ∑ t : Fin us.length, (s (t + 1)).tank.outletT * us[t].draw_L
        draw := ∑ t : Fin us.length, us[t].draw_L
        runtime := fun i => ∑ t : Fin us.length, ((s (t + 1)).st i).runtime_min
        input := fun i => ∑ t : Fin us.length, ((s (t + 1)).st i).energyInput_kWh
        output := fun i => ∑ t : Fin us.length, ((s (t + 1)).st i).energyOutput_kWh }),
      (runLoop_ok _ _ _ _ _ _).mpr ⟨s, e0, e1, rfl, by simp⟩, ?_⟩
    rw [if_neg hd]
    rw [ha.last]
    have hst : s'.st = fun i => { (s us.length).st i with
        runtime_min := ∑ t : Fin us.length, ((s (t + 1)).st i).runtime_min
        energyInput_kWh := ∑ t : Fin us.length, ((s (t + 1)).st i).energyInput_kWh
        energyOutput_kWh := ∑ t : Fin us.length, ((s (t + 1)).st i).energyOutput_kWh } := by
      funext i
      rw [← ha.runtime i, ← ha.input i, ← ha.output i]
      dsimp only
      rw [← (ha.switches i).1, ← (ha.switches i).2]
    rw [hst, ha.removed, ha.standby, ha.outlet]
    rfl

/-- A run of two steps. -/
def sampleRun : List Sim.RunInput :=
  [⟨10, 8, 20, 15, ⟨false, false, false, false⟩⟩, ⟨12, 4, 20, 15, ⟨true, false, false, false⟩⟩]

/-- A run succeeds and both heat sources deliver heat. -/
example : ∃ s', Sim.runNSteps sampleLibm 5 sampleSim sampleRun = .ok s' ∧
    0 < (s'.st 0).energyOutput_kWh ∧ 0 < (s'.st 1).energyOutput_kWh ∧ s'.tank.outletT ≠ 0 := by
  decide +kernel

/-- **C34, finding.** A run without any draw has no outlet temperature: it is 0/0. -/
theorem C34_no_draw_undefined (m : Libm) (fuel : ℕ) (s0 s' : Sim n k) (us : List Sim.RunInput)
    (h : ∀ u ∈ us, u.draw_L = 0) : Sim.runNSteps m fuel s0 us ≠ .ok s' := by
  intro hc
  obtain ⟨s, -, -, hd, -⟩ := (C34_run_aggregates_steps m fuel s0 s' us).mp hc
  exact hd (Finset.sum_eq_zero fun t _ => h _ (List.getElem_mem _))

/-! ### Energy over a run -/

theorem Sim.AlwaysAccountable.accountable {s : Sim n k} (h : s.AlwaysAccountable)
    (u : StepInput) (hd : 0 ≤ u.draw_L) (hx : ∀ x ∈ u.extraHeat_W, 0 ≤ x) :
    ∃ lo, s.Accountable u lo ⊤ := by
  by_cases ht : ∃ t, s.DrawnTank u t
  · obtain ⟨t, ht⟩ := ht
    refine ⟨Finset.univ.inf' ⟨0, Finset.mem_univ _⟩ t.nodeTs, ?_⟩
    exact
      { nodes := h.nodes, volume := h.volume, nodeVolume := h.nodeVolume, nodeCp := h.nodeCp
        inlet := h.inlet, inlet2 := h.inlet2, mixBelow := h.mixBelow, mixing := h.mixing
        effectiveness := h.effectiveness, draw := hd, step := h.step, extra := hx
        absolute := h.absolute, setpoint := le_top
        range := fun t' ht' j => ⟨by
          have : t' = t := by
            unfold Sim.DrawnTank at ht ht'
            rw [ht] at ht'
            exact (Except.ok.inj ht').symm
          rw [this]
          exact Finset.inf'_le _ (Finset.mem_univ j), le_top⟩
        sound := fun i => h.sound i _ _ }
  · exact ⟨0,
      { nodes := h.nodes, volume := h.volume, nodeVolume := h.nodeVolume, nodeCp := h.nodeCp
        inlet := h.inlet, inlet2 := h.inlet2, mixBelow := h.mixBelow, mixing := h.mixing
        effectiveness := h.effectiveness, draw := hd, step := h.step, extra := hx
        absolute := h.absolute, setpoint := le_top
        range := fun t' ht' => absurd ⟨t', ht'⟩ ht
        sound := fun i => h.sound i _ _ }⟩

/-- One step of a run: the energy balance, and the conditions carry over to the next state. -/
theorem Sim.AlwaysAccountable.afterStep {m : Libm} (hexp : ∀ x, 0 ≤ m.exp x) {fuel : ℕ} {s s' : Sim n k}
    (h : s.AlwaysAccountable) (u : RunInput) (hd : 0 ≤ u.draw_L)
    (hr : Sim.runOneStepAt m fuel s u = .ok s') :
    s'.AlwaysAccountable ∧ s'.tank.volume_L = s.tank.volume_L ∧
    tankHeat s.tank.volume_L s'.tank.nodeTs = tankHeat s.tank.volume_L s.tank.nodeTs +
      3600 * ∑ i, (s'.st i).energyOutput_kWh + waterHeat u.draw_L u.inletT -
      waterHeat 1 (s'.tank.outletT * u.draw_L) - 3600 * s'.standbyLosses_kWh := by
  have h' : (s.setInletT u.inletT).AlwaysAccountable := ⟨h.nodes, h.volume, h.nodeVolume, h.nodeCp,
    h.inlet, h.inlet2, h.mixBelow, h.mixing, h.effectiveness, h.step, h.absolute, h.sound⟩
  obtain ⟨lo, ha⟩ := h'.accountable u.step hd (by simp [RunInput.step])
  obtain ⟨b, b2, -, -, hc, hcfg, hsp, -⟩ := step_facts m hexp fuel _ s' u.step lo ⊤ ha hr
  have hc : s'.tank.toTankCfg = s.tank.toTankCfg := hc
  have hcfg : s'.cfg = s.cfg := hcfg
  have hsp : s'.setpoint = s.setpoint := hsp
  refine ⟨?_, by rw [hc], ?_⟩
  · refine ⟨h.nodes, ?_, ?_, ?_, ?_, ?_, ?_, ?_, ?_, ?_, ?_, ?_⟩
    · rw [hc]; exact h.volume
    · rw [hc]; exact h.nodeVolume
    · rw [hc]; exact h.nodeCp
    · rw [hc]; exact h.inlet
    · rw [hc]; exact h.inlet2
    · rw [hc]; exact h.mixBelow
    · rw [hc]; exact h.mixing
    · rw [hc]; exact h.effectiveness
    · rw [hcfg]; exact h.step
    · rw [hsp]; exact h.absolute
    · rw [hcfg, hsp]; exact h.sound
  · have hx : s'.extraEnergyInput_kWh = 0 := by rw [b2]; simp [RunInput.step]
    rw [hx] at b
    have hin : (s.setInletT u.inletT).inletHeat u.step = waterHeat u.draw_L u.inletT := by
      unfold Sim.inletHeat RunInput.step Sim.setInletT waterHeat
      by_cases hz : u.draw_L = 0
      · simp [hz]
      · simp only [hz, ↓reduceIte]
        split_ifs <;> ring
    have hout : (if u.step.draw_L = 0 then 0 else waterHeat u.step.draw_L s'.tank.outletT) =
        waterHeat 1 (s'.tank.outletT * u.draw_L) := by
      unfold RunInput.step waterHeat
      by_cases hz : u.draw_L = 0
      · simp [hz]
      · simp only [hz, ↓reduceIte]; ring
    rw [hin, hout] at b
    have e1 : (s.setInletT u.inletT).tank = s.tank := rfl
    rw [e1] at b
    linarith

/-- **C34** (energy). Over a whole run, of any number of steps, the tank's heat content changes by
exactly the reported heat output, the heat of the inlet water, the heat of the total draw at the
reported outlet temperature and the reported standby losses. -/
theorem C34_run_energy_balance (m : Libm) (hexp : ∀ x, 0 ≤ m.exp x) (fuel : ℕ) (s0 s' : Sim n k)
    (us : List Sim.RunInput) (ha : s0.AlwaysAccountable) (hd : ∀ u ∈ us, 0 ≤ u.draw_L)
    (h : Sim.runNSteps m fuel s0 us = .ok s') :
    tankHeat s0.tank.volume_L s'.tank.nodeTs = tankHeat s0.tank.volume_L s0.tank.nodeTs +
      3600 * ∑ i, (s'.st i).energyOutput_kWh +
      ∑ t : Fin us.length, waterHeat us[t].draw_L us[t].inletT -
      waterHeat (∑ t : Fin us.length, us[t].draw_L) s'.tank.outletT -
      3600 * s'.standbyLosses_kWh := by
  obtain ⟨s, h0, h1, hne, hg⟩ := (C34_run_aggregates_steps m fuel s0 s' us).mp h
  have key : ∀ N (hN : N ≤ us.length), (s N).AlwaysAccountable ∧
      (s N).tank.volume_L = s0.tank.volume_L ∧
      tankHeat s0.tank.volume_L (s N).tank.nodeTs = tankHeat s0.tank.volume_L s0.tank.nodeTs +
        ∑ t : Fin N, (3600 * ∑ i, ((s (t + 1)).st i).energyOutput_kWh +
          waterHeat us[(t : ℕ)].draw_L us[(t : ℕ)].inletT -
          waterHeat 1 ((s (t + 1)).tank.outletT * us[(t : ℕ)].draw_L) -
          3600 * (s (t + 1)).standbyLosses_kWh) := by
    intro N
    induction N with
    | zero => intro _; rw [h0]; exact ⟨ha, rfl, by simp⟩
    | succ N ih =>
      intro hN
      obtain ⟨i1, i2, i3⟩ := ih (by omega)
      obtain ⟨j1, j2, j3⟩ := i1.afterStep hexp us[N] (hd _ (List.getElem_mem _)) (h1 ⟨N, by omega⟩)
      refine ⟨j1, j2.trans i2, ?_⟩
      rw [i2] at j3
      rw [Fin.sum_univ_castSucc]
      simp only [Fin.val_castSucc, Fin.val_last]
      rw [j3, i3]
      ring
  obtain ⟨-, -, e⟩ := key us.length le_rfl
  have hn : s'.tank.nodeTs = (s us.length).tank.nodeTs := by rw [hg.last]
  rw [hn, e]
  have ho : ∑ i, (s'.st i).energyOutput_kWh =
      ∑ t : Fin us.length, ∑ i, ((s (t + 1)).st i).energyOutput_kWh := by
    rw [Finset.sum_comm]
    exact Finset.sum_congr rfl fun i _ => hg.output i
  have hw : waterHeat (∑ t : Fin us.length, us[t].draw_L) s'.tank.outletT =
      ∑ t : Fin us.length, waterHeat 1 ((s (t + 1)).tank.outletT * us[t].draw_L) := by
    rw [hg.outlet]
    unfold waterHeat
    rw [← Finset.mul_sum, mul_assoc, mul_div_cancel₀ _ hne]
    ring
  rw [ho, hw, hg.standby, Finset.sum_sub_distrib, Finset.sum_sub_distrib, Finset.sum_add_distrib,
    Finset.mul_sum, Finset.mul_sum]
  simp only [Fin.getElem_fin]
  ring

/-- The hypotheses are met by the sample run. -/
example : sampleSim.AlwaysAccountable ∧ (∀ u ∈ sampleRun, 0 ≤ u.draw_L) :=
  ⟨⟨by norm_num, warmTank_wellFormed.volume_pos, warmTank_wellFormed.nodeVolume, by decide +kernel,
    warmTank_wellFormed.inlet_le, warmTank_wellFormed.inlet2_le, warmTank_wellFormed.mixBelow_le,
    by decide +kernel, by decide +kernel, by decide +kernel, by decide +kernel,
    fun i air lo => sampleSim_sound _ air lo ⊤ i⟩, by decide +kernel⟩

end HPWH
