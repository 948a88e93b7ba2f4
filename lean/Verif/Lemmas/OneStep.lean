import Verif.Lemmas.Extra
import Verif.Props.TankUpdate

/-! Helper lemmas about `runOneStep`. -/

namespace HPWH

open Spec Units

variable {n k : ℕ}

/-- The outputs of a heat source at the start of a step. -/
def SourceState.cleared (x : SourceState) : SourceState :=
  { x with runtime_min := 0, energyInput_kWh := 0, energyOutput_kWh := 0 }

/-- The state in which the heating of a step starts. -/
structure HeatStart (s : Sim n k) (u : Sim.StepInput) (s0 : Sim n k) : Prop where
  drawn : s.DrawnTank u s0.tank
  cfg : s0.cfg = s.cfg
  setpoint : s0.setpoint = s.setpoint
  inletT : s0.inletT = s.inletT
  haveInletT : s0.haveInletT = s.haveInletT
  socControl : s0.socControl = s.socControl
  st : ∀ i, s0.st i = (s.st i).cleared
  isHeating : s0.isHeating = s.isHeating
  timerTOT : s0.timerTOT = s.timerTOT
  locationT : s0.locationT = if s.cfg.doTempDepression then s.roomT u else s.locationT
  removed : s0.energyRemoved_kWh = 0
  extra : s0.extraEnergyInput_kWh = 0
  plant : ∃ t, s.DrawnTank u t ∧
    ({ s.resetOutputs.toPlant with tank := t } : Plant n).updateSoC = .ok s0.toPlant

theorem runOneStep_ok {m : Libm} {fuel : ℕ} {s s' : Sim n k} {u : Sim.StepInput}
    (h : Sim.runOneStep m fuel s u = .ok s') :
    ¬ (s.cfg.doTempDepression = true ∧ s.cfg.minutesPerStep ≠ 1) ∧
    ∃ s0 s1 s2, HeatStart s u s0 ∧ Sim.control m fuel u.dr (s.sourceAirT u) s0 = .ok s1 ∧
      s1.extraStep m u.extraHeat_W = .ok s2 ∧
      s' = ((s2.trackLocation u.tankAmbient).settleOutputs).updateTimer u.dr := by
  unfold Sim.runOneStep at h
  by_cases hd : s.cfg.doTempDepression = true ∧ s.cfg.minutesPerStep ≠ 1
  · rw [if_pos hd] at h; cases h
  · rw [if_neg hd] at h
    refine ⟨hd, ?_⟩
    simp only at h
    rw [bind_ok_iff] at h
    obtain ⟨t, ht, h⟩ := h
    rw [bind_ok_iff] at h
    obtain ⟨p, hp, h⟩ := h
    rw [bind_ok_iff] at h
    obtain ⟨s1, h1, h⟩ := h
    rw [bind_ok_iff] at h
    obtain ⟨s2, h2, h⟩ := h
    have hloc : (s.resetOutputs.initLocation u.tankAmbient).locationT =
        if s.cfg.doTempDepression then s.roomT u else s.locationT := by
      unfold Sim.initLocation Sim.resetOutputs Sim.roomT
      by_cases h3 : s.cfg.doTempDepression = true
      · by_cases h4 : s.locationT = Sim.uninitialisedLocation
        · simp [h3, h4]
        · simp [h3, h4]
      · simp [h3]
    have hinit : s.resetOutputs.initLocation u.tankAmbient =
        { s.resetOutputs with
          locationT := (s.resetOutputs.initLocation u.tankAmbient).locationT } := by
      unfold Sim.initLocation
      split_ifs <;> rfl
    have hair1 : (if s.cfg.doTempDepression then
        (s.resetOutputs.initLocation u.tankAmbient).locationT else u.tankAmbient) =
        s.tankAirT u := by
      rw [hloc]; unfold Sim.tankAirT; split_ifs <;> rfl
    have hair2 : (if s.cfg.doTempDepression then
        (s.resetOutputs.initLocation u.tankAmbient).locationT else u.sourceAmbient) =
        s.sourceAirT u := by
      rw [hloc]; unfold Sim.sourceAirT; split_ifs <;> rfl
    rw [hair1] at ht
    rw [hair2] at h1
    have e := updateSoC_eq hp
    refine ⟨_, s1, s2, ?_, h1, h2, (Except.ok.inj h).symm⟩
    have hpt : p.tank = t := by rw [e]
    constructor
    · unfold Sim.DrawnTank
      change _ = (Except.ok p.tank : Res (Tank n))
      rw [hpt]
      have h5 : s.cfg.hoursPerStep = s.cfg.minutesPerStep / 60 := rfl
      have h6 : s.cfg.secondsPerStep = 60 * s.cfg.minutesPerStep := rfl
      rw [h5, h6, hinit] at ht
      exact ht
    · change (s.resetOutputs.initLocation u.tankAmbient).cfg = _
      rw [hinit]; rfl
    · change p.setpoint = _
      rw [e]
      change (s.resetOutputs.initLocation u.tankAmbient).setpoint = _
      rw [hinit]; rfl
    · change p.inletT = _
      rw [e]
      change (s.resetOutputs.initLocation u.tankAmbient).inletT = _
      rw [hinit]; rfl
    · change p.haveInletT = _
      rw [e]
      change (s.resetOutputs.initLocation u.tankAmbient).haveInletT = _
      rw [hinit]; rfl
    · change p.socControl = _
      rw [e]
      change (s.resetOutputs.initLocation u.tankAmbient).socControl = _
      rw [hinit]; rfl
    · intro i
      change (s.resetOutputs.initLocation u.tankAmbient).st i = _
      rw [hinit]; rfl
    · change (s.resetOutputs.initLocation u.tankAmbient).isHeating = _
      rw [hinit]; rfl
    · change (s.resetOutputs.initLocation u.tankAmbient).timerTOT = _
      rw [hinit]; rfl
    · exact hloc
    · change (s.resetOutputs.initLocation u.tankAmbient).energyRemoved_kWh = _
      rw [hinit]; rfl
    · change (s.resetOutputs.initLocation u.tankAmbient).extraEnergyInput_kWh = _
      rw [hinit]; rfl
    · refine ⟨t, ?_, ?_⟩
      · unfold Sim.DrawnTank
        have h5 : s.cfg.hoursPerStep = s.cfg.minutesPerStep / 60 := rfl
        have h6 : s.cfg.secondsPerStep = 60 * s.cfg.minutesPerStep := rfl
        rw [h5, h6, hinit] at ht
        exact ht
      · rw [hinit] at hp
        exact hp

/-- What the end of a step leaves alone. -/
theorem finish_facts (s2 : Sim n k) (goal : ℚ) (dr : DR) :
    let s' := ((s2.trackLocation goal).settleOutputs).updateTimer dr
    s'.toPlant = s2.toPlant ∧ s'.cfg = s2.cfg ∧ s'.isHeating = s2.isHeating ∧
    s'.extraEnergyInput_kWh = s2.extraEnergyInput_kWh ∧
    s'.standbyLosses_kWh = KJ_TO_KWH s2.tank.standbyLosses_kJ ∧
    (∀ i, (s'.st i).runtime_min = (s2.st i).runtime_min ∧
      (s'.st i).energyOutput_kWh = (s2.st i).energyOutput_kWh ∧
      (s'.st i).isOn = (s2.st i).isOn ∧ (s'.st i).lockedOut = (s2.st i).lockedOut) ∧
    (∀ i, (s'.st i).energyInput_kWh = (s2.st i).energyInput_kWh +
      match (s2.cfg.src i).kind with
      | .condenser c => c.standbyPower_kW * ((s2.cfg.minutesPerStep - (s2.st i).runtime_min) / 60)
      | .resistance _ => 0) ∧
    s'.energyRemoved_kWh = s2.energyRemoved_kWh +
      ∑ i, ((s'.st i).energyOutput_kWh - (s'.st i).energyInput_kWh) := by
  have e : s2.trackLocation goal = { s2 with locationT := (s2.trackLocation goal).locationT } := by
    unfold Sim.trackLocation
    split_ifs <;> rfl
  rw [e]
  refine ⟨rfl, rfl, rfl, rfl, rfl, fun i => ?_, fun i => ?_, rfl⟩
  · simp only [Sim.settleOutputs, Sim.updateTimer]
    split <;> simp
  · simp only [Sim.settleOutputs, Sim.updateTimer, minPerHr]
    cases (s2.cfg.src i).kind <;> simp

/-- Drawing, losses and conduction keep the settings of a tank, and inversion mixing stratifies it. -/
theorem updateNodes_facts (t t' : Tank n) (hw : t.WellFormed)
    (hours seconds d in1 amb v2 in2 : ℚ) (hd : 0 ≤ d)
    (h : t.updateNodes hours seconds d in1 amb v2 in2 = .ok t') :
    t'.toTankCfg = t.toTankCfg ∧ (t.doInversionMixing = true → Monotone t'.nodeTs) := by
  unfold Tank.updateNodes at h
  split at h
  swap
  · cases h
  rename_i t1 h1
  have hcfg : t1.toTankCfg = t.toTankCfg := by
    rcases eq_or_lt_of_le hd with rfl | hd
    · unfold Tank.processDraw at h1
      simp at h1
      rw [h1]
    · obtain ⟨_, hmix⟩ := Tank.processDraw_ok t t1 _ _ _ _ hd h1
      exact (Tank.mixBottom_ok _ _ hmix).1.1.trans
        (Tank.drawWater_same t hw d in1 v2 in2 hd).1
  have hw1 := hw.of_cfg hcfg
  refine ⟨(C06_losses_accounted t1 t' hw1.toConsistent hours seconds amb h).1.trans hcfg,
    fun hmix => ?_⟩
  unfold Tank.processLosses at h
  split_ifs at h
  rw [← Except.ok.inj h]
  apply Tank.mixInversions_nodes_monotone
  change t1.toTankCfg.doInversionMixing = true
  rw [hcfg]; exact hmix

theorem extraStep_spec (m : Libm) (hexp : ∀ x, 0 ≤ m.exp x) (hn : n + 1 ≤ 10000)
    (s s' : Sim n k) (w : List ℚ) (hw : ∀ x ∈ w, 0 ≤ x) (hcp : 0 < s.tank.nodeCp)
    (hm : Monotone s.tank.nodeTs) (hmin : 0 ≤ s.cfg.minutesPerStep)
    (h0 : s.extraEnergyInput_kWh = 0)
    (h : s.extraStep m w = .ok s') :
    s.toPlant.SameSettings s'.toPlant ∧ s'.cfg = s.cfg ∧ s'.st = s.st ∧
    s'.energyRemoved_kWh = s.energyRemoved_kWh ∧
    s'.extraEnergyInput_kWh = w.sum / 1000 * (s.cfg.minutesPerStep / 60) ∧
    Monotone s'.tank.nodeTs ∧ (∀ j, s.tank.nodeTs j ≤ s'.tank.nodeTs j) ∧
    s.tank.nodeCp * ∑ j, s'.tank.nodeTs j =
      s.tank.nodeCp * ∑ j, s.tank.nodeTs j + 3600 * s'.extraEnergyInput_kWh := by
  unfold Sim.extraStep at h
  by_cases hne : w = []
  · subst hne
    rw [if_neg (by simp)] at h
    obtain rfl := Except.ok.inj h
    exact ⟨⟨rfl, rfl, rfl, rfl, rfl⟩, rfl, rfl, rfl, by simpa using h0, hm, fun _ => le_rfl,
      by rw [h0]; ring⟩
  · rw [if_pos hne, bind_ok_iff] at h
    obtain ⟨a, ha, h⟩ := h
    rw [bind_ok_iff] at h
    obtain ⟨p, hp, h⟩ := h
    obtain ⟨e1, e2, e3, e4, e5⟩ := addExtraHeat_spec m hexp hn s a w hne hw hcp hm hmin ha
    have e := updateSoC_eq hp
    have hpt : p.tank = a.tank := by rw [e]
    rw [← Except.ok.inj h]
    refine ⟨⟨?_, ?_, ?_, ?_, ?_⟩, ?_, ?_, ?_, e2, ?_, ?_, ?_⟩
    · change p.tank = _
      rw [hpt, e1]
    · change p.setpoint = _
      rw [e]; change a.setpoint = _; rw [e1]
    · change p.inletT = _
      rw [e]; change a.inletT = _; rw [e1]
    · change p.haveInletT = _
      rw [e]; change a.haveInletT = _; rw [e1]
    · change p.socControl = _
      rw [e]; change a.socControl = _; rw [e1]
    · change a.cfg = _
      rw [e1]
    · change a.st = _
      rw [e1]
    · change a.energyRemoved_kWh = _
      rw [e1]
    · change Monotone p.tank.nodeTs
      rw [hpt]; exact e3
    · change ∀ j, _ ≤ p.tank.nodeTs j
      rw [hpt]; exact e4
    · change _ * ∑ j, p.tank.nodeTs j = _
      rw [hpt]; exact e5

/-- Extra heat of any sign changes only tank temperatures, state of charge and its own output. -/
theorem extraStep_frame {m : Libm} {s s' : Sim n k} {w : List ℚ} (h : s.extraStep m w = .ok s') :
    s'.cfg = s.cfg ∧ s'.st = s.st ∧ s'.setpoint = s.setpoint ∧ s'.locationT = s.locationT ∧
    s'.timerTOT = s.timerTOT ∧ s'.isHeating = s.isHeating ∧
    s'.energyRemoved_kWh = s.energyRemoved_kWh ∧ (w = [] → s' = s) := by
  unfold Sim.extraStep at h
  by_cases hne : w = []
  · rw [if_neg (by simp [hne])] at h
    rw [← Except.ok.inj h]
    exact ⟨rfl, rfl, rfl, rfl, rfl, rfl, rfl, fun _ => rfl⟩
  · rw [if_pos hne, bind_ok_iff] at h
    obtain ⟨a, ha, h⟩ := h
    rw [bind_ok_iff] at h
    obtain ⟨p, hp, h⟩ := h
    rw [← Except.ok.inj h]
    unfold Sim.addExtraHeat at ha
    rw [bind_ok_iff] at ha
    obtain ⟨md, -, ha⟩ := ha
    rw [bind_ok_iff] at ha
    obtain ⟨nodes, -, ha⟩ := ha
    have e := updateSoC_eq hp
    have ha := Except.ok.inj ha
    have hsp : p.setpoint = s.setpoint := by rw [e, ← ha]
    rw [← ha]
    exact ⟨rfl, rfl, hsp, rfl, rfl, rfl, rfl, fun hh => absurd hh hne⟩

end HPWH
