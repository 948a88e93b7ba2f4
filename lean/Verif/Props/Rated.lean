import Verif.Lemmas.Count
import Verif.Props.Step

/-! # C58: energy of resistance elements against their rated power -/

namespace HPWH

open Spec Units

variable {n k : ℕ}

theorem resistanceAddHeat_input {s : SourceCfg n k} {power : ℚ} {p : Plant n} {st : SourceState}
    {minutes : ℚ} {r : Plant n × SourceState} (h : resistanceAddHeat s power p st minutes = .ok r) :
    r.2.energyInput_kWh = st.energyInput_kWh + power * (r.2.runtime_min / 60) ∧
    r.2.energyOutput_kWh = st.energyOutput_kWh + power * (r.2.runtime_min / 60) := by
  unfold resistanceAddHeat at h
  rw [bind_ok_iff] at h
  obtain ⟨d, -, h⟩ := h
  dsimp only at h
  rw [bind_ok_iff] at h
  obtain ⟨q, -, h⟩ := h
  split_ifs at h
  rw [← Except.ok.inj h]
  exact ⟨rfl, rfl⟩

/-- During the heating of a step, after `c` runs of the element `x`. -/
def RatedInv (s0 : Sim n k) (lo : ℚ) (hi : WithTop ℚ) (x : Fin k) (power : ℚ) (c : ℕ)
    (s : Sim n k) : Prop :=
  StepInv s0 s lo hi ∧ (s.st x).energyInput_kWh ≤ c * (power * (s0.cfg.minutesPerStep / 60))

theorem RatedInv.countInduction {m : Libm} (hexp : ∀ x, 0 ≤ m.exp x) (fuel : ℕ) (dr : DR) (amb : ℚ)
    (s0 : Sim n k) (lo : ℚ) (hi : WithTop ℚ)
    (hS : ∀ j, (s0.cfg.src j).Sound s0.setpoint amb lo hi) (hn : n + 1 ≤ 10000) (ht : s0.tank.Consistent)
    (hmix : s0.tank.doInversionMixing = true) (hset : (s0.setpoint : WithTop ℚ) ≤ hi)
    (habs : Sim.noSetpoint < s0.setpoint) (hM : 0 ≤ s0.cfg.minutesPerStep) (x : Fin k) (power : ℚ)
    (hx : (s0.cfg.src x).kind = .resistance power) :
    CountInduction m fuel dr amb s0.cfg x (RatedInv s0 lo hi x power)
      (fun y => 0 ≤ y ∧ y ≤ s0.cfg.minutesPerStep) where
  fixed _ _ inv := inv.1.cfg
  mono c c' s h inv := by
    refine ⟨inv.1, inv.2.trans ?_⟩
    have hp := ((hS x).resistance power hx).1
    have : (c : ℚ) ≤ c' := by exact_mod_cast h
    exact mul_le_mul_of_nonneg_right this (by positivity)
  ctrl c s s' hc inv := ⟨inv.1.ctrl hc, by rw [hc.input]; exact inv.2⟩
  heat c s s' j minutes inv hq h := by
    obtain ⟨h1, h2, h3⟩ := StepInv.heat hexp (hS j) hn ht hmix hset habs inv.1 hq.1 hq.2 h
    refine ⟨⟨h1, ?_⟩, fun hlt => ⟨by linarith, by linarith [hq.2]⟩⟩
    by_cases hj : j = x
    · subst hj
      have hp := ((hS j).resistance power hx).1
      have hk : (s.cfg.src j).kind = .resistance power := by rw [inv.1.cfg]; exact hx
      unfold Sim.addHeatParent at h
      rw [hk] at h
      obtain ⟨h4, -⟩ := addHeat_spec h
      unfold Sim.addHeatKind at h4
      rw [hk] at h4
      have e := (resistanceAddHeat_input h4).1
      dsimp only at e
      rw [e, if_pos rfl]
      have hb : power * ((s'.st j).runtime_min / 60) ≤ power * (s0.cfg.minutesPerStep / 60) := by
        apply mul_le_mul_of_nonneg_left _ hp.le
        linarith [hq.2]
      have := inv.2
      push_cast
      linarith
    · rw [if_neg hj]
      have e : s'.st x = s.st x := by
        rcases addHeatParent_cases h with h | ⟨c, s2, -, -, -, -, h2, ⟨-, e⟩ | ⟨-, e⟩⟩
        · rw [(addHeat_spec h).2]
          exact Function.update_of_ne (Ne.symm hj) _ _
        · rw [e]
          change s2.st x = _
          rw [(addHeat_spec h2).2]
          exact Function.update_of_ne (Ne.symm hj) _ _
        · rw [e, (addHeat_spec h2).2]
          exact Function.update_of_ne (Ne.symm hj) _ _
      rw [e]
      exact inv.2
  back c s b minutes inv hq h := ⟨h, by linarith [inv.1.run_nonneg b, hq.2]⟩

/-- **C58**, the part that holds. In a step a resistance element uses at most its rated power times
the step length for its own turn, and twice that for every heat source it is the backup of. The full
claim, at most rated power times step length, is false (`C58_backup_exceeds_rating`). -/
theorem C58_energy_bounded_partial (m : Libm) (hexp : ∀ x, 0 ≤ m.exp x) (fuel : ℕ) (s s' : Sim n k)
    (u : Sim.StepInput) (lo : ℚ) (hi : WithTop ℚ) (ha : s.Accountable u lo hi)
    (h : Sim.runOneStep m fuel s u = .ok s') (i : Fin k) (power : ℚ)
    (hk : (s.cfg.src i).kind = .resistance power) :
    (s'.st i).energyInput_kWh ≤
      (1 + 2 * (Finset.univ.filter fun j => (s.cfg.src j).backup = some i).card : ℕ) *
        (power * (s.cfg.minutesPerStep / 60)) := by
  obtain ⟨-, s0, s1, s2, hs, h1, h2, rfl⟩ := runOneStep_ok h
  have hw := ha.wellFormed
  have hdrawn := hs.drawn
  unfold Sim.DrawnTank at hdrawn
  have hw0 : Tank.WellFormed { s.tank with outletT := 0, standbyLosses_kJ := 0 } := hw.of_cfg rfl
  obtain ⟨f1, f2⟩ := updateNodes_facts _ _ hw0 _ _ _ _ _ _ _ ha.draw hdrawn
  have hcfg0 : s0.tank.toTankCfg = s.tank.toTankCfg := f1
  have hws : s0.tank.WellFormed := hw.of_cfg hcfg0
  have hr := ha.range _ hs.drawn
  have hstep : 0 ≤ s0.cfg.minutesPerStep := by rw [hs.cfg]; exact ha.step
  have H := RatedInv.countInduction hexp fuel u.dr (s.sourceAirT u) s0 lo hi
    (fun j => by rw [hs.cfg, hs.setpoint]; exact ha.sound j) ha.nodes hws.toConsistent
    (by rw [hcfg0]; exact ha.mixing)
    (by rw [hs.setpoint]; exact ha.setpoint) (by rw [hs.setpoint]; exact ha.absolute) hstep i power
    (by rw [hs.cfg]; exact hk)
  have inv := H.control ⟨StepInv.init s0 lo hi (f2 ha.mixing) (fun j => (hr j).1)
    (fun j => (hr j).2) (fun i => by rw [hs.st]; rfl) hstep, by rw [hs.st]; simp
      [SourceState.cleared]⟩ ⟨hstep, le_rfl⟩ h1
  obtain ⟨-, -, -, -, -, -, g7, -⟩ := finish_facts s2 u.tankAmbient u.dr
  rw [g7 i]
  obtain ⟨x1, x2, -⟩ := extraStep_frame h2
  have hk2 : (s2.cfg.src i).kind = .resistance power := by
    rw [x1, inv.1.cfg, hs.cfg]; exact hk
  rw [hk2, x2, add_zero, ← hs.cfg]
  exact inv.2

/-- **C58**, for elements that are nobody's backup: at most rated power times step length. -/
theorem C58_no_backup_partial (m : Libm) (hexp : ∀ x, 0 ≤ m.exp x) (fuel : ℕ) (s s' : Sim n k)
    (u : Sim.StepInput) (lo : ℚ) (hi : WithTop ℚ) (ha : s.Accountable u lo hi)
    (h : Sim.runOneStep m fuel s u = .ok s') (i : Fin k) (power : ℚ)
    (hk : (s.cfg.src i).kind = .resistance power)
    (hb : ∀ j, (s.cfg.src j).backup ≠ some i) :
    (s'.st i).energyInput_kWh ≤ power * (s.cfg.minutesPerStep / 60) := by
  have := C58_energy_bounded_partial m hexp fuel s s' u lo hi ha h i power hk
  simpa [hb] using this

/-- The sample simulator at a setpoint above what the compressor can reach, with the tank just below
the compressor's limit and the compressor running; the element is its backup or, if not, is on in its
own right. -/
def maxedSim (asBackup : Bool) : Sim 3 2 :=
  { sampleSim with
    toPlant := { samplePlant with
      setpoint := 80
      tank := { warmTank with nodeTs := fun _ => 70 - 1 / 100 } }
    cfg := { sampleSim.cfg with
      src := ![{ sampleSource with backup := if asBackup then some 1 else none },
        sampleSim.cfg.src 1] }
    st := ![⟨true, false, 0, 0, 0⟩, ⟨!asBackup, false, 0, 0, 0⟩]
    isHeating := true }

/-- A step without a draw. -/
def idleInput : Sim.StepInput :=
  ⟨0, 69, 20, ⟨false, false, false, false⟩, 0, 12, []⟩

theorem maxedSim_accountable (b : Bool) : (maxedSim b).Accountable idleInput 0 ⊤ where
  nodes := by norm_num
  volume := warmTank_wellFormed.volume_pos
  nodeVolume := warmTank_wellFormed.nodeVolume
  nodeCp := by cases b <;> decide +kernel
  inlet := warmTank_wellFormed.inlet_le
  inlet2 := warmTank_wellFormed.inlet2_le
  mixBelow := warmTank_wellFormed.mixBelow_le
  mixing := by cases b <;> decide +kernel
  effectiveness := by cases b <;> decide +kernel
  draw := by cases b <;> decide +kernel
  step := by cases b <;> decide +kernel
  extra := by cases b <;> decide +kernel
  absolute := by cases b <;> decide +kernel
  setpoint := le_top
  range := by
    intro t ht
    have : ∃ t, ({ (maxedSim b).tank with outletT := 0, standbyLosses_kJ := 0 } : Tank 3).updateNodes
        ((maxedSim b).cfg.minutesPerStep / 60) (60 * (maxedSim b).cfg.minutesPerStep) idleInput.draw_L
        (maxedSim b).inletT ((maxedSim b).tankAirT idleInput) idleInput.inletVol2_L
        idleInput.inletT2 = .ok t ∧ ∀ j, 0 ≤ t.nodeTs j := by
      cases b <;> decide +kernel
    obtain ⟨t1, h1, h2⟩ := this
    unfold Sim.DrawnTank at ht
    rw [ht] at h1
    obtain rfl := Except.ok.inj h1
    exact fun j => ⟨h2 j, le_top⟩
  sound i := by
    match i with
    | 0 =>
      have h := sampleSim_sound (maxedSim b).setpoint ((maxedSim b).sourceAirT idleInput) 0 ⊤ 0
      exact ⟨h.resistance, h.internal, fun c hc hx => absurd hx (by
        have : sampleCond = c := by
          simpa [maxedSim, sampleSource] using hc
        subst this
        decide), h.output⟩
    | 1 => exact sampleSim_sound _ _ _ _ 1

/-- **C58, finding.** The full claim is false: when the compressor reaches its limit soon after the
start of a step, its backup element is run for the rest of the step at once and then again in its own
turn. In this step the 4.5 kW element uses more than 4.5 kW times one minute. -/
theorem C58_backup_exceeds_rating :
    ∃ s', Sim.runOneStep sampleLibm 5 (maxedSim true) idleInput = .ok s' ∧
      ((maxedSim true).cfg.src 1).kind = .resistance (9 / 2) ∧
      (s'.st 1).energyInput_kWh > 3 / 2 * (9 / 2 * ((maxedSim true).cfg.minutesPerStep / 60)) := by
  have : ∃ s', Sim.runOneStep sampleLibm 5 (maxedSim true) idleInput = .ok s' ∧
      (s'.st 1).energyInput_kWh > 3 / 2 * (9 / 2 * ((maxedSim true).cfg.minutesPerStep / 60)) := by
    decide +kernel
  obtain ⟨s', h1, h2⟩ := this
  exact ⟨s', h1, rfl, h2⟩

/-- The hypotheses of both bounds are met by steps in which the element runs: here as a backup, and
in its own right with no backups at all. -/
example : (maxedSim true).Accountable idleInput 0 ⊤ ∧ ∃ s',
    Sim.runOneStep sampleLibm 5 (maxedSim true) idleInput = .ok s' ∧ 0 < (s'.st 1).energyInput_kWh :=
  ⟨maxedSim_accountable true, by decide +kernel⟩

example : (maxedSim false).Accountable idleInput 0 ⊤ ∧
    (∀ j, ((maxedSim false).cfg.src j).backup ≠ some 1) ∧ ∃ s',
    Sim.runOneStep sampleLibm 5 (maxedSim false) idleInput = .ok s' ∧
    0 < (s'.st 1).energyInput_kWh :=
  ⟨maxedSim_accountable false, by decide +kernel, by decide +kernel⟩

end HPWH
