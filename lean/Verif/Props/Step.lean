import Verif.Lemmas.StepFrame
import Verif.Lemmas.Standby
import Verif.Model.Run
import Verif.Props.Control

/-! # C29–C33, C36, C54, C56: the whole simulation step -/

namespace HPWH

open Spec Units

variable {n k : ℕ}

/-! ## Samples -/

/-- Functions standing in for the mathematical library in examples. -/
def sampleLibm : Libm := ⟨fun _ => 1, fun _ => 0⟩

/-- A compressor with an element as backup, at a setpoint of 55 °C; the compressor wants to heat. -/
def sampleSim : Sim 3 2 where
  toPlant := samplePlant
  cfg :=
    { src := ![{ sampleControlled with backup := some 1 },
               { sampleElement with turnOn := [⟨.temp true .top, 30, .less, false, false, ""⟩] }]
      minutesPerStep := 1
      doTempDepression := false
      maxDepression := 3
      timerLimitTOT := 60
      compressorIndex := some 0
      lowestElementIndex := some 1
      vipIndex := none
      setpointFixed := false
      isStorageTank := false
      canScale := true
      heightMap := [(1, 0)] }
  st := fun _ => ⟨false, false, 0, 0, 0⟩
  isHeating := false
  locationT := -500
  timerTOT := 0
  energyRemoved_kWh := 0
  standbyLosses_kWh := 0
  extraEnergyInput_kWh := 0

/-- A step with a draw of 8 litres and no demand-response signal. -/
def sampleInput : Sim.StepInput where
  draw_L := 8
  tankAmbient := 20
  sourceAmbient := 15
  dr := ⟨false, false, false, false⟩
  inletVol2_L := 2
  inletT2 := 12
  extraHeat_W := [100, 200, 300]

example : ∃ s', Sim.runOneStep sampleLibm 5 sampleSim sampleInput = .ok s' ∧
    0 < (s'.st 0).energyOutput_kWh ∧ 0 < s'.extraEnergyInput_kWh ∧ s'.standbyLosses_kWh ≠ 0 := by
  decide +kernel

/-! ## C31 -/

theorem Sim.Accountable.wellFormed {s : Sim n k} {u : StepInput} {lo : ℚ} {hi : WithTop ℚ}
    (h : s.Accountable u lo hi) : s.tank.WellFormed where
  volume_pos := h.volume
  nodeVolume := h.nodeVolume
  nodeCp := by rw [h.nodeCp]; norm_num [cpWater, rhoWater]
  inlet_le := h.inlet
  inlet2_le := h.inlet2
  mixBelow_le := h.mixBelow

/-- What holds after a step whose heat is accounted for, with the tank after the draw. -/
theorem step_facts_drawn (m : Libm) (hexp : ∀ x, 0 ≤ m.exp x) (fuel : ℕ) (s s' : Sim n k)
    (u : Sim.StepInput) (lo : ℚ) (hi : WithTop ℚ) (ha : s.Accountable u lo hi)
    (h : Sim.runOneStep m fuel s u = .ok s') :
    tankHeat s.tank.volume_L s'.tank.nodeTs = tankHeat s.tank.volume_L s.tank.nodeTs +
      3600 * ∑ i, (s'.st i).energyOutput_kWh + 3600 * s'.extraEnergyInput_kWh +
      s.inletHeat u - (if u.draw_L = 0 then 0 else waterHeat u.draw_L s'.tank.outletT) -
      3600 * s'.standbyLosses_kWh ∧
    s'.extraEnergyInput_kWh = u.extraHeat_W.sum / 1000 * (s.cfg.minutesPerStep / 60) ∧
    (∀ i, 0 ≤ (s'.st i).runtime_min ∧ (s'.st i).runtime_min ≤ s.cfg.minutesPerStep) ∧
    Monotone s'.tank.nodeTs ∧ s'.tank.toTankCfg = s.tank.toTankCfg ∧ s'.cfg = s.cfg ∧
    s'.setpoint = s.setpoint ∧ s'.inletT = s.inletT ∧ s'.haveInletT = s.haveInletT ∧
    s'.socControl = s.socControl ∧ (∀ j, lo ≤ s'.tank.nodeTs j) ∧
    (u.extraHeat_W = [] → ∀ j, (s'.tank.nodeTs j : WithTop ℚ) ≤ hi) ∧
    ∃ t, s.DrawnTank u t ∧ s'.tank.outletT = t.outletT := by
  obtain ⟨-, s0, s1, s2, hs, h1, h2, rfl⟩ := runOneStep_ok h
  have hw := ha.wellFormed
  have hdrawn := hs.drawn
  unfold Sim.DrawnTank at hdrawn
  set t0 : Tank n := { s.tank with outletT := 0, standbyLosses_kJ := 0 } with ht0
  have hw0 : t0.WellFormed := hw.of_cfg rfl
  obtain ⟨f1, f2⟩ := updateNodes_facts t0 _ hw0 _ _ _ _ _ _ _ ha.draw hdrawn
  obtain ⟨b1, -, b2⟩ := C08_update_energy_balance t0 _ hw0 _ _ _ _ _ _ _ ha.draw ha.effectiveness
    hdrawn
  have hcfg0 : s0.tank.toTankCfg = s.tank.toTankCfg := f1
  have hws : s0.tank.WellFormed := hw.of_cfg hcfg0
  have hmono : Monotone s0.tank.nodeTs := f2 ha.mixing
  have hr := ha.range _ hs.drawn
  have hset : (s0.setpoint : WithTop ℚ) ≤ hi := by rw [hs.setpoint]; exact ha.setpoint
  have hstep : 0 ≤ s0.cfg.minutesPerStep := by rw [hs.cfg]; exact ha.step
  have H := StepInv.heatInduction hexp fuel u.dr (s.sourceAirT u) s0 lo hi
    (fun j => by rw [hs.cfg, hs.setpoint]; exact ha.sound j) ha.nodes hws.toConsistent
    (by change s0.tank.toTankCfg.doInversionMixing = true; rw [hcfg0]; exact ha.mixing)
    hset (by rw [hs.setpoint]; exact ha.absolute)
  have inv := H.control (StepInv.init s0 lo hi hmono (fun j => (hr j).1) (fun j => (hr j).2)
    (fun i => by rw [hs.st]; rfl) hstep) ⟨hstep, le_rfl⟩ h1
  obtain ⟨q1, q2, q3, q4, q5⟩ := inv.same
  have hc1 : s1.cfg = s.cfg := inv.cfg.trans hs.cfg
  obtain ⟨x1, x2, x3, x4, x5, x6, x7, x8⟩ := extraStep_spec m hexp ha.nodes s1 s2 u.extraHeat_W ha.extra
    (by rw [q1]; exact hws.toConsistent.nodeCp_pos) inv.mono (by rw [hc1]; exact ha.step)
    (by rw [inv.rest]; exact hs.extra) h2
  obtain ⟨y1, y2, y3, y4, y5⟩ := x1
  obtain ⟨g1, g2, -, g3, g4, g5, -, -⟩ := finish_facts s2 u.tankAmbient u.dr
  set s' := ((s2.trackLocation u.tankAmbient).settleOutputs).updateTimer u.dr
  have htank : s'.tank = s2.tank := by rw [g1]
  have hT : s2.tank = { s0.tank with nodeTs := s2.tank.nodeTs } := by rw [y1, q1]
  have htc : s2.tank.toTankCfg = s.tank.toTankCfg := by rw [hT]; exact hcfg0
  refine ⟨?_, ?_, ?_, ?_, ?_, ?_, ?_, ?_, ?_, ?_, ?_, ?_, s0.tank, hs.drawn, by rw [htank, hT]⟩
  · have e0 : s0.tank.nodeCp = s.tank.nodeCp := by rw [hcfg0]
    have e1 : s1.tank.nodeCp = s.tank.nodeCp := by rw [q1]; exact e0
    have eo : s2.tank.outletT = s0.tank.outletT := by rw [hT]
    have es : s2.tank.standbyLosses_kJ = s0.tank.standbyLosses_kJ := by rw [hT]
    have eE := inv.energy
    rw [e0] at eE
    rw [e1, eE] at x8
    have hsum : ∑ i, ((s1.st i).energyOutput_kWh - (s0.st i).energyOutput_kWh) =
        ∑ i, (s'.st i).energyOutput_kWh := by
      refine Finset.sum_congr rfl fun i _ => ?_
      rw [(g5 i).2.1, x3, hs.st]
      simp [SourceState.cleared]
    rw [hsum] at x8
    have hb : tankHeat s.tank.volume_L s0.tank.nodeTs = tankHeat s.tank.volume_L s.tank.nodeTs +
        s.inletHeat u - (if u.draw_L = 0 then 0 else waterHeat u.draw_L s0.tank.outletT) -
        s0.tank.standbyLosses_kJ := by
      unfold Sim.inletHeat
      have : t0.standbyLosses_kJ = 0 := rfl
      rw [this, sub_zero] at b1
      exact b1
    have hsb : 3600 * s'.standbyLosses_kWh = s0.tank.standbyLosses_kJ := by
      rw [g4, es]
      unfold KJ_TO_KWH secPerHr secPerMin minPerHr
      ring
    rw [htank, eo, hsb, g3, hw.toConsistent.tankHeat_eq, x8]
    rw [hw.toConsistent.tankHeat_eq s0.tank.nodeTs] at hb
    linarith
  · rw [g3, x5, hc1]
  · intro i
    rw [(g5 i).1, x3]
    have := inv.run_le i
    rw [hs.cfg] at this
    exact ⟨inv.run_nonneg i, this⟩
  · rw [htank]; exact x6
  · rw [htank]; exact htc
  · rw [g2, x2, hc1]
  · change s'.toPlant.setpoint = _
    rw [g1, y2, q2, hs.setpoint]
  · change s'.toPlant.inletT = _
    rw [g1, y3, q3, hs.inletT]
  · change s'.toPlant.haveInletT = _
    rw [g1, y4, q4, hs.haveInletT]
  · change s'.toPlant.socControl = _
    rw [g1, y5, q5, hs.socControl]
  · intro j
    rw [htank]
    exact (inv.lower j).trans (x7 j)
  · intro hx j
    rw [htank, (extraStep_frame h2).2.2.2.2.2.2.2 hx]
    exact inv.upper j

/-- What holds after a step whose heat is accounted for. -/
theorem step_facts (m : Libm) (hexp : ∀ x, 0 ≤ m.exp x) (fuel : ℕ) (s s' : Sim n k)
    (u : Sim.StepInput) (lo : ℚ) (hi : WithTop ℚ) (ha : s.Accountable u lo hi)
    (h : Sim.runOneStep m fuel s u = .ok s') :
    tankHeat s.tank.volume_L s'.tank.nodeTs = tankHeat s.tank.volume_L s.tank.nodeTs +
      3600 * ∑ i, (s'.st i).energyOutput_kWh + 3600 * s'.extraEnergyInput_kWh +
      s.inletHeat u - (if u.draw_L = 0 then 0 else waterHeat u.draw_L s'.tank.outletT) -
      3600 * s'.standbyLosses_kWh ∧
    s'.extraEnergyInput_kWh = u.extraHeat_W.sum / 1000 * (s.cfg.minutesPerStep / 60) ∧
    (∀ i, 0 ≤ (s'.st i).runtime_min ∧ (s'.st i).runtime_min ≤ s.cfg.minutesPerStep) ∧
    Monotone s'.tank.nodeTs ∧ s'.tank.toTankCfg = s.tank.toTankCfg ∧ s'.cfg = s.cfg ∧
    s'.setpoint = s.setpoint ∧ s'.inletT = s.inletT ∧ s'.haveInletT = s.haveInletT ∧
    s'.socControl = s.socControl ∧ (∀ j, lo ≤ s'.tank.nodeTs j) ∧
    (u.extraHeat_W = [] → ∀ j, (s'.tank.nodeTs j : WithTop ℚ) ≤ hi) := by
  obtain ⟨a1, a2, a3, a4, a5, a6, a7, a8, a9, a10, a11, a12, -⟩ := step_facts_drawn m hexp fuel s s' u lo hi ha h
  exact ⟨a1, a2, a3, a4, a5, a6, a7, a8, a9, a10, a11, a12⟩

/-- **C31.** A whole step balances energy: final heat content of the tank = initial content + heat
delivered by all heat sources + extra heat + heat of the inlet water − heat of the outlet water −
reported standby losses (1 kWh = 3600 kJ), whichever heat sources run, in whatever order and for
however many external passes. Moreover the extra heat is exactly the power asked for times the step
length, and the tank is stratified. -/
theorem C31_step_energy_balance (m : Libm) (hexp : ∀ x, 0 ≤ m.exp x) (fuel : ℕ) (s s' : Sim n k)
    (u : Sim.StepInput) (lo : ℚ) (hi : WithTop ℚ) (ha : s.Accountable u lo hi)
    (h : Sim.runOneStep m fuel s u = .ok s') :
    tankHeat s.tank.volume_L s'.tank.nodeTs = tankHeat s.tank.volume_L s.tank.nodeTs +
      3600 * ∑ i, (s'.st i).energyOutput_kWh + 3600 * s'.extraEnergyInput_kWh +
      s.inletHeat u - (if u.draw_L = 0 then 0 else waterHeat u.draw_L s'.tank.outletT) -
      3600 * s'.standbyLosses_kWh ∧
    s'.extraEnergyInput_kWh = u.extraHeat_W.sum / 1000 * (s.cfg.minutesPerStep / 60) ∧
    Stratified s'.tank.nodeTs := by
  obtain ⟨h1, h2, -, h4, -⟩ := step_facts m hexp fuel s s' u lo hi ha h
  exact ⟨h1, h2, (stratified_iff_monotone _).mpr h4⟩

theorem sampleSim_sound (x air lo : ℚ) (hi : WithTop ℚ) (i : Fin 2) :
    (sampleSim.cfg.src i).Sound x air lo hi := by
  match i with
  | 0 =>
    refine ⟨fun p hp => ?_, fun c hc _ => ?_, fun c hc hx => ?_, fun c hc _ _ w perf _ _ h => ?_⟩
    · exact absurd hp (by simp [sampleSim, sampleControlled, sampleSource])
    · exact ⟨sampleDist_proper, by
        change (1 : ℚ) ≠ 0
        norm_num⟩
    · have : sampleCond = c := by
        simpa [sampleSim, sampleControlled, sampleSource] using hc
      subst this
      exact absurd hx (by decide)
    · have : sampleCond = c := by
        simpa [sampleSim, sampleControlled, sampleSource] using hc
      subst this
      have : perf = ⟨500, 1500, 3⟩ := by
        rw [← Except.ok.inj h]
        norm_num [sampleSim, sampleControlled, sampleSource, sampleCond, sampleElement]
      rw [this]; norm_num
  | 1 =>
    refine ⟨fun p hp => ?_, fun c hc _ => ?_, fun c hc hx => ?_, fun c hc _ _ w perf _ _ h => ?_⟩
    · have : p = 9 / 2 := by
        have := hp
        simp [sampleSim, sampleElement] at this
        exact this.symm
      rw [this]
      exact ⟨by norm_num, sampleDist_proper⟩
    all_goals exact absurd hc (by simp [sampleSim, sampleElement])

theorem sampleSim_accountable : sampleSim.Accountable sampleInput 0 ⊤ where
  nodes := by norm_num
  volume := warmTank_wellFormed.volume_pos
  nodeVolume := warmTank_wellFormed.nodeVolume
  nodeCp := by decide +kernel
  inlet := warmTank_wellFormed.inlet_le
  inlet2 := warmTank_wellFormed.inlet2_le
  mixBelow := warmTank_wellFormed.mixBelow_le
  mixing := by decide +kernel
  effectiveness := by decide +kernel
  draw := by decide +kernel
  step := by decide +kernel
  extra := by decide +kernel
  absolute := by decide +kernel
  setpoint := le_top
  range := by
    intro t ht
    have : ∃ t, ({ sampleSim.tank with outletT := 0, standbyLosses_kJ := 0 } : Tank 3).updateNodes
        (sampleSim.cfg.minutesPerStep / 60) (60 * sampleSim.cfg.minutesPerStep) sampleInput.draw_L
        sampleSim.inletT (sampleSim.tankAirT sampleInput) sampleInput.inletVol2_L
        sampleInput.inletT2 = .ok t ∧ ∀ j, 0 ≤ t.nodeTs j := by
      decide +kernel
    obtain ⟨t1, h1, h2⟩ := this
    unfold Sim.DrawnTank at ht
    rw [ht] at h1
    obtain rfl := Except.ok.inj h1
    exact fun j => ⟨h2 j, le_top⟩
  sound := sampleSim_sound _ _ _ _

/-! ## C33 -/

/-- **C33.** The energy reported as taken from the environment over a step is the total heat-source
output less the total heat-source input, the latter including standby. -/
theorem C33_energy_from_environment (m : Libm) (fuel : ℕ) (s s' : Sim n k) (u : Sim.StepInput)
    (h : Sim.runOneStep m fuel s u = .ok s') :
    s'.energyRemoved_kWh = ∑ i, (s'.st i).energyOutput_kWh - ∑ i, (s'.st i).energyInput_kWh := by
  obtain ⟨-, s0, s1, s2, hs, h1, h2, rfl⟩ := runOneStep_ok h
  have inv := control_frame h1
  obtain ⟨-, -, -, -, -, -, a7, -⟩ := extraStep_frame h2
  obtain ⟨-, -, -, -, -, -, -, g8⟩ := finish_facts s2 u.tankAmbient u.dr
  rw [g8, a7, inv.rest, Finset.sum_sub_distrib]
  change s0.energyRemoved_kWh + _ = _
  rw [hs.removed, zero_add]

/-- **C33** (standby). Standby power has no effect on a step other than to be charged for the time the
condenser does not run: had the condensers other standby powers `x`, the step would go exactly as it
does, but each condenser's energy input would differ by the difference in standby power times the time
it does not run (and the energy taken from the environment accordingly). -/
theorem C33_standby_power (m : Libm) (fuel : ℕ) (s a : Sim n k) (u : Sim.StepInput)
    (x : Fin k → ℚ) (h : Sim.runOneStep m fuel s u = .ok a) :
    ∃ b, Sim.runOneStep m fuel (s.withStandby x) u = .ok b ∧
      b = { a with
        cfg := (s.withStandby x).cfg
        st := b.st
        energyRemoved_kWh := b.energyRemoved_kWh } ∧
      ∀ i, b.st i = { a.st i with energyInput_kWh := (b.st i).energyInput_kWh } ∧
        (b.st i).energyInput_kWh = (a.st i).energyInput_kWh +
          match (s.cfg.src i).kind with
          | .condenser c => (x i - c.standbyPower_kW) *
              ((s.cfg.minutesPerStep - (a.st i).runtime_min) / 60)
          | .resistance _ => 0 := by
  obtain ⟨-, s0, s1, s2, hs, h1, h2, ha⟩ := runOneStep_ok h
  have hcfg : a.cfg = s.cfg := by
    rw [ha, (finish_facts s2 u.tankAmbient u.dr).2.1, (extraStep_frame h2).1,
      (control_frame h1).cfg, hs.cfg]
  rw [Standby.runOneStep_eq] at h ⊢
  rw [Standby.unsettled_eq]
  cases ht : Standby.unsettled m fuel s u with
  | error e => rw [ht] at h; cases h
  | ok t =>
    rw [ht] at h
    have h : t.settleOutputs.updateTimer u.dr = a := Except.ok.inj h
    have hc : t.cfg = s.cfg := by rw [← hcfg, ← h]; rfl
    refine ⟨_, rfl, ?_, fun i => ?_⟩
    · rw [← h]
      unfold Sim.withStandby
      rw [← hc]
      rfl
    · rw [← h]
      unfold Sim.withStandby SourceCfg.withStandby
      simp only [Sim.settleOutputs, Sim.updateTimer, hc, minPerHr]
      cases (s.cfg.src i).kind with
      | resistance w => simp
      | condenser c => simp only; exact ⟨trivial, by ring⟩

/-- The hypothesis is met by a step in which the compressor runs. -/
example : ∃ a, Sim.runOneStep sampleLibm 5 sampleSim sampleInput = .ok a ∧
    0 < (a.st 0).runtime_min ∧ (a.st 0).runtime_min ≤ 1 ∧ a.energyRemoved_kWh ≠ 0 := by
  decide +kernel

/-! ## C54 -/

/-- **C54.** Extra heat given as any distribution of non-negative powers raises the heat content of a
stratified tank by exactly the reported extra energy, which is exactly the power asked for times the
step length; no node is cooled and nothing but node temperatures and that report changes. -/
theorem C54_extra_heat_accounted (m : Libm) (hexp : ∀ x, 0 ≤ m.exp x) (s s' : Sim n k) (w : List ℚ)
    (hn : n + 1 ≤ 10000) (hne : w ≠ []) (hw : ∀ x ∈ w, 0 ≤ x) (ht : s.tank.Consistent)
    (hm : Stratified s.tank.nodeTs) (hmin : 0 ≤ s.cfg.minutesPerStep)
    (h : s.addExtraHeat m w = .ok s') :
    tankHeat s.tank.volume_L s'.tank.nodeTs =
      tankHeat s.tank.volume_L s.tank.nodeTs + 3600 * s'.extraEnergyInput_kWh ∧
    s'.extraEnergyInput_kWh = w.sum / 1000 * (s.cfg.minutesPerStep / 60) ∧
    (∀ j, s.tank.nodeTs j ≤ s'.tank.nodeTs j) ∧
    s' = { s with
      tank := { s.tank with nodeTs := s'.tank.nodeTs }
      extraEnergyInput_kWh := s'.extraEnergyInput_kWh } := by
  obtain ⟨e1, e2, -, e4, e5⟩ := addExtraHeat_spec m hexp hn s s' w hne hw ht.nodeCp_pos
    ((stratified_iff_monotone _).mp hm) hmin h
  refine ⟨?_, e2, e4, e1⟩
  rw [ht.tankHeat_eq, ht.tankHeat_eq, e5]

example : ∃ s', sampleSim.addExtraHeat sampleLibm [100, 0, 300] = .ok s' ∧
    s'.extraEnergyInput_kWh = 400 / 1000 * (1 / 60) ∧
    (∃ j, sampleSim.tank.nodeTs j < s'.tank.nodeTs j) := by
  decide +kernel

/-- **C54, finding.** Extra heat of mixed signs is reported but not applied: 200 W in one place and
−300 W in another are reported as −100 W, yet the tank is not cooled. -/
theorem C54_negative_extra_heat_not_applied :
    ∃ s', sampleSim.addExtraHeat sampleLibm [200, -300] = .ok s' ∧
      s'.extraEnergyInput_kWh = -100 / 1000 * (1 / 60) ∧
      ¬ tankHeat sampleSim.tank.volume_L s'.tank.nodeTs =
        tankHeat sampleSim.tank.volume_L sampleSim.tank.nodeTs + 3600 * s'.extraEnergyInput_kWh := by
  decide +kernel

/-! ## C56 -/

/-- **C56.** Every heat source reports a run time between zero and the step length. -/
theorem C56_runtime_within_step (m : Libm) (hexp : ∀ x, 0 ≤ m.exp x) (fuel : ℕ) (s s' : Sim n k)
    (u : Sim.StepInput) (lo : ℚ) (hi : WithTop ℚ) (ha : s.Accountable u lo hi)
    (h : Sim.runOneStep m fuel s u = .ok s') (i : Fin k) :
    0 ≤ (s'.st i).runtime_min ∧ (s'.st i).runtime_min ≤ s.cfg.minutesPerStep :=
  (step_facts m hexp fuel s s' u lo hi ha h).2.2.1 i

/-- The hypotheses are met by a step in which the compressor runs. -/
example : sampleSim.Accountable sampleInput 0 ⊤ ∧
    ∃ s', Sim.runOneStep sampleLibm 5 sampleSim sampleInput = .ok s' ∧
      0 < (s'.st 0).runtime_min ∧ (s'.st 0).runtime_min ≤ 1 :=
  ⟨sampleSim_accountable, by decide +kernel⟩

end HPWH
