import Verif.Props.Step

/-! # C29, C36: demand response and the setpoint over a step -/

namespace HPWH

open Spec Units

variable {n k : ℕ}

/-! ## C29 -/

/-- **C29** (compressors). In a step whose signal locks out compressors, no compressor runs or delivers
heat, and each consumes exactly its standby power over the step. -/
theorem C29_compressors_locked_out (m : Libm) (fuel : ℕ) (s s' : Sim n k) (u : Sim.StepInput)
    (hdr : u.dr.loc = true) (h : Sim.runOneStep m fuel s u = .ok s') (i : Fin k) (c : CondCfg)
    (hi : (s.cfg.src i).kind = .condenser c) :
    (s'.st i).runtime_min = 0 ∧ (s'.st i).energyOutput_kWh = 0 ∧
    (s'.st i).energyInput_kWh = c.standbyPower_kW * (s.cfg.minutesPerStep / 60) := by
  obtain ⟨-, s0, s1, s2, hs, h1, h2, rfl⟩ := runOneStep_ok h
  have inv := control_frame h1
  obtain ⟨a1, a2, -⟩ := extraStep_frame h2
  obtain ⟨-, -, -, -, -, g5, g6, -⟩ := finish_facts s2 u.tankAmbient u.dr
  have hc : s2.cfg = s.cfg := by rw [a1, inv.cfg, hs.cfg]
  obtain ⟨q1, q2, q3⟩ := inv.quiet i (by rw [hs.cfg, hi]; exact hdr)
  rw [hs.st] at q1 q2 q3
  refine ⟨?_, ?_, ?_⟩
  · rw [(g5 i).1, a2, q1]; rfl
  · rw [(g5 i).2.1, a2, q3]; rfl
  · rw [g6 i, hc, hi, a2, q1, q2]
    simp [SourceState.cleared]

/-- **C29** (resistance elements). In a step whose signal locks out resistance elements, no element
runs, delivers heat or consumes energy. -/
theorem C29_elements_locked_out (m : Libm) (fuel : ℕ) (s s' : Sim n k) (u : Sim.StepInput)
    (hdr : u.dr.lor = true) (h : Sim.runOneStep m fuel s u = .ok s') (i : Fin k) (power : ℚ)
    (hi : (s.cfg.src i).kind = .resistance power) :
    (s'.st i).runtime_min = 0 ∧ (s'.st i).energyOutput_kWh = 0 ∧
    (s'.st i).energyInput_kWh = 0 := by
  obtain ⟨-, s0, s1, s2, hs, h1, h2, rfl⟩ := runOneStep_ok h
  have inv := control_frame h1
  obtain ⟨a1, a2, -⟩ := extraStep_frame h2
  obtain ⟨-, -, -, -, -, g5, g6, -⟩ := finish_facts s2 u.tankAmbient u.dr
  have hc : s2.cfg = s.cfg := by rw [a1, inv.cfg, hs.cfg]
  obtain ⟨q1, q2, q3⟩ := inv.quiet i (by rw [hs.cfg, hi]; exact hdr)
  rw [hs.st] at q1 q2 q3
  refine ⟨?_, ?_, ?_⟩
  · rw [(g5 i).1, a2, q1]; rfl
  · rw [(g5 i).2.1, a2, q3]; rfl
  · rw [g6 i, hc, hi, a2, q2]
    simp [SourceState.cleared]

/-- **C29** (both). With both locked out and no extra heat, the tank after the step is the tank after
the draw, the standby losses and conduction; every heat source is off and the heater is not heating. -/
theorem C29_nothing_heats (m : Libm) (fuel : ℕ) (s s' : Sim n k) (u : Sim.StepInput)
    (hloc : u.dr.loc = true) (hlor : u.dr.lor = true) (hx : u.extraHeat_W = [])
    (h : Sim.runOneStep m fuel s u = .ok s') :
    s.DrawnTank u s'.tank ∧ s'.isHeating = false ∧ (∀ i, (s'.st i).isOn = false) ∧
    ∀ i, (s'.st i).runtime_min = 0 ∧ (s'.st i).energyOutput_kWh = 0 := by
  obtain ⟨-, s0, s1, s2, hs, h1, h2, rfl⟩ := runOneStep_ok h
  have e2 := (extraStep_frame h2).2.2.2.2.2.2.2 hx
  subst e2
  obtain ⟨g1, -, g3, -, -, g5, -, -⟩ := finish_facts s2 u.tankAmbient u.dr
  have e1 : s2 = s0.turnAllOff := by
    unfold Sim.control Sim.normalControl at h1
    rw [if_pos (by rw [hloc, hlor]; rfl), bind_ok_iff] at h1
    obtain ⟨a, ha, h1⟩ := h1
    rw [← Except.ok.inj ha] at h1
    rw [← Except.ok.inj h1]
    split_ifs <;> rfl
  refine ⟨?_, ?_, fun i => ?_, fun i => ⟨?_, ?_⟩⟩
  · rw [g1, e1]; exact hs.drawn
  · rw [g3, e1]; rfl
  · rw [(g5 i).2.2.1, e1]; rfl
  · rw [(g5 i).1, e1]
    change (s0.st i).runtime_min = 0
    rw [hs.st]; rfl
  · rw [(g5 i).2.1, e1]
    change (s0.st i).energyOutput_kWh = 0
    rw [hs.st]; rfl

/-- The hypotheses are met: without a signal the sample compressor heats; with compressors locked out
its backup element heats instead; with both locked out nothing does. -/
example : (∃ s', Sim.runOneStep sampleLibm 5 sampleSim sampleInput = .ok s' ∧
      0 < (s'.st 0).energyOutput_kWh) ∧
    (∃ s', Sim.runOneStep sampleLibm 5 sampleSim
        { sampleInput with dr := ⟨true, false, false, false⟩ } = .ok s' ∧
      (s'.st 0).energyOutput_kWh = 0 ∧ 0 < (s'.st 1).energyOutput_kWh) ∧
    (∃ s', Sim.runOneStep sampleLibm 5 sampleSim
        { sampleInput with dr := ⟨false, true, false, false⟩ } = .ok s' ∧
      (s'.st 1).energyOutput_kWh = 0 ∧ 0 < (s'.st 0).energyOutput_kWh) ∧
    (∃ s', Sim.runOneStep sampleLibm 5 sampleSim
        { sampleInput with dr := ⟨true, true, false, false⟩, extraHeat_W := [] } = .ok s' ∧
      (s'.st 0).energyOutput_kWh = 0 ∧ (s'.st 1).energyOutput_kWh = 0) := by
  decide +kernel

/-! ## C36 -/

/-- **C36.** Whatever happens in a step, in particular when a compressor limits the outlet temperature
in cold air, the setpoint after the step is the one before it (for any setpoint above absolute zero,
the value the code uses as "no setpoint"). -/
theorem C36_setpoint_survives (m : Libm) (fuel : ℕ) (s s' : Sim n k) (u : Sim.StepInput)
    (habs : -27315 / 100 < s.setpoint) (h : Sim.runOneStep m fuel s u = .ok s') :
    s'.setpoint = s.setpoint := by
  obtain ⟨-, s0, s1, s2, hs, h1, h2, rfl⟩ := runOneStep_ok h
  have inv := control_frame h1
  obtain ⟨-, -, a3, -⟩ := extraStep_frame h2
  obtain ⟨g1, -⟩ := finish_facts s2 u.tankAmbient u.dr
  have hq := (inv.same (by rw [hs.setpoint]; exact habs)).2.1
  have : (((s2.trackLocation u.tankAmbient).settleOutputs).updateTimer u.dr).setpoint =
      s2.setpoint := by
    change (((s2.trackLocation u.tankAmbient).settleOutputs).updateTimer u.dr).toPlant.setpoint = _
    rw [g1]
  rw [this, a3, hq, hs.setpoint]

/-- The sample system with a compressor limited to 45 °C in air at or below 20 °C. -/
def limitedSim : Sim 3 2 :=
  { sampleSim with
    cfg := { sampleSim.cfg with
      src := ![{ sampleControlled with
                   kind := .condenser { sampleCond with maxOutAirT := 20, maxOutT := 45 } },
               sampleElement] } }

/-- The hypotheses are met in a case where the limit applies (air at 15 °C, setpoint 55 °C) and the
compressor runs. -/
example : (∃ s', Sim.runOneStep sampleLibm 5 limitedSim sampleInput = .ok s' ∧
    0 < (s'.st 0).runtime_min ∧ s'.setpoint = 55) ∧ limitedSim.setpoint = 55 := by
  decide +kernel

/-- **C36, finding.** On a model whose setpoint is fixed, limiting the outlet temperature is rejected
as a setpoint change, so every step in which the compressor would run in cold air fails. -/
theorem C36_fixed_setpoint_step_fails :
    ∃ e, Sim.runOneStep sampleLibm 5
      { limitedSim with cfg := { limitedSim.cfg with setpointFixed := true } } sampleInput =
        .error e := by
  have h : (match Sim.runOneStep sampleLibm 5
      { limitedSim with cfg := { limitedSim.cfg with setpointFixed := true } } sampleInput with
    | .error _ => true
    | .ok _ => false) = true := by decide +kernel
  split at h
  · exact ⟨_, by assumption⟩
  · cases h

end HPWH
