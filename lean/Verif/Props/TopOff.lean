import Verif.Lemmas.TopOff
import Verif.Props.Step
import Mathlib.Algebra.Order.Floor.Semiring
import Mathlib.Data.Rat.Floor

/-! # C30: top-off signals -/

namespace HPWH

open Standby (map_bind bind_map map_ite map_pure map_ok map_error)

variable {n k : ℕ}

/-- A step is its course up to the timer, then the timer. -/
theorem step_untimed (m : Libm) (fuel : ℕ) (s s' : Sim n k) (u : Sim.StepInput)
    (h : Sim.runOneStep m fuel s u = .ok s') :
    s'.timerTOT = (if u.dr.tot ∧ s.timerTOT + s.cfg.minutesPerStep ≥ s.cfg.timerLimitTOT then 0
      else if ¬ u.dr.too ∧ ¬ u.dr.tot then 0 else s.timerTOT + s.cfg.minutesPerStep) ∧
    s'.cfg = s.cfg := by
  obtain ⟨-, s0, s1, s2, hs, h1, h2, rfl⟩ := runOneStep_ok h
  have inv := control_frame h1
  obtain ⟨a1, -, -, -, a5, -⟩ := extraStep_frame h2
  have hc : s2.cfg = s.cfg := by rw [a1, inv.cfg, hs.cfg]
  have ht : s2.timerTOT = s.timerTOT := by
    rw [a5, inv.rest]
    exact hs.timerTOT
  have e : s2.trackLocation u.tankAmbient =
      { s2 with locationT := (s2.trackLocation u.tankAmbient).locationT } := by
    unfold Sim.trackLocation
    split_ifs <;> rfl
  rw [e]
  simp only [Sim.updateTimer, Sim.settleOutputs, hc, ht, and_true]

/-- **C30** (timer running). While the top-off timer is running, a top-off signal forces nothing: the
step does exactly what it would do without the signal, the timer apart. -/
theorem C30_no_forcing_while_timer_runs (m : Libm) (fuel : ℕ) (s : Sim n k) (u : Sim.StepInput)
    (ht : s.timerTOT ≠ 0) :
    Sim.runOneStep m fuel s { u with dr := u.dr.noTopOff } =
      (Sim.runOneStep m fuel s u).map fun a => { a with timerTOT := 0 } := by
  rw [Standby.runOneStep_eq, Standby.runOneStep_eq]
  have e : Standby.unsettled m fuel s { u with dr := u.dr.noTopOff } =
      Standby.unsettled m fuel s u := by
    unfold Standby.unsettled
    simp only
    congr 1
    congr 1
    funext tank
    congr 1
    funext p
    rw [TopOff.control_running m fuel u.dr]
    change (s.resetOutputs.initLocation u.tankAmbient).timerTOT ≠ 0
    unfold Sim.initLocation
    split_ifs <;> exact ht
  rw [e]
  cases Standby.unsettled m fuel s u with
  | error e => rfl
  | ok a =>
    simp only [Except.map, Except.ok.injEq]
    unfold Sim.updateTimer Sim.settleOutputs DR.noTopOff
    simp

/-- **C30** (timer at zero). With a top-off signal and the timer at zero, the step goes exactly as it
would without the signal had the compressor and the lowest element been on already (and possibly
companions of heat sources so switched on), the timer apart. -/
theorem C30_forcing_at_zero (m : Libm) (fuel : ℕ) (s s' : Sim n k) (u : Sim.StepInput)
    (ht : s.timerTOT = 0) (hd : u.dr.too = true ∨ u.dr.tot = true)
    (h : Sim.runOneStep m fuel s u = .ok s') :
    ∃ E : Finset (Fin k),
      (∀ i, s.cfg.compressorIndex = some i ∨ s.cfg.lowestElementIndex = some i → i ∈ E) ∧
      (∀ j ∈ E, s.cfg.compressorIndex = some j ∨ s.cfg.lowestElementIndex = some j ∨
        ∃ l ∈ E, (s.cfg.src l).companion = some j) ∧
      Sim.runOneStep m fuel (s.switchedOn E) { u with dr := u.dr.noTopOff } =
        .ok { s' with timerTOT := 0 } := by
  unfold Sim.runOneStep at h
  by_cases hdep : s.cfg.doTempDepression = true ∧ s.cfg.minutesPerStep ≠ 1
  · rw [if_pos hdep] at h; cases h
  rw [if_neg hdep] at h
  simp only at h
  rw [bind_ok_iff] at h
  obtain ⟨t, ht', h⟩ := h
  rw [bind_ok_iff] at h
  obtain ⟨p, hp, h⟩ := h
  rw [bind_ok_iff] at h
  obtain ⟨s1, h1, h⟩ := h
  rw [bind_ok_iff] at h
  obtain ⟨s2, h2, h⟩ := h
  have hcfg : (s.resetOutputs.initLocation u.tankAmbient).cfg = s.cfg := by
    unfold Sim.initLocation; split_ifs <;> rfl
  obtain ⟨E, e1, e2, e3⟩ := TopOff.control_forced m fuel u.dr _ _ s1 (by
    change (s.resetOutputs.initLocation u.tankAmbient).timerTOT = 0
    unfold Sim.initLocation
    split_ifs <;> exact ht) hd h1
  simp only [hcfg] at e2 e3
  refine ⟨E, e2, e3, ?_⟩
  have hsw : (s.switchedOn E).resetOutputs.initLocation u.tankAmbient =
      (s.resetOutputs.initLocation u.tankAmbient).switchedOn E := by
    unfold Sim.initLocation
    by_cases hl : s.resetOutputs.cfg.doTempDepression = true ∧
        s.resetOutputs.locationT = Sim.uninitialisedLocation
    · rw [if_pos hl, if_pos (by exact hl)]; rfl
    · rw [if_neg hl, if_neg (by exact hl)]; rfl
  unfold Sim.runOneStep
  rw [if_neg (by exact hdep)]
  simp only [hsw]
  refine (bind_ok_iff _ _ _).mpr ⟨t, ht', (bind_ok_iff _ _ _).mpr ⟨p, hp,
    (bind_ok_iff _ _ _).mpr ⟨s1, e1, (bind_ok_iff _ _ _).mpr ⟨s2, h2, ?_⟩⟩⟩⟩
  rw [← Except.ok.inj h]
  unfold Sim.updateTimer Sim.settleOutputs DR.noTopOff
  simp [pure, Except.pure]

/-- Settings do not change over a history. -/
theorem history_cfg {m : Libm} {fuel N : ℕ} {s : ℕ → Sim n k} {u : ℕ → Sim.StepInput}
    (h : Sim.History m fuel N s u) : ∀ t ≤ N, (s t).cfg = (s 0).cfg := by
  intro t
  induction t with
  | zero => intro _; rfl
  | succ t ih =>
    intro ht
    rw [(step_untimed m fuel _ _ _ (h t (by omega))).2, ih (by omega)]

/-- **C30** (top-off once). While a top-off-once signal is held (without the timed one) the timer is
zero, so that heating is forced, before the first step only. -/
theorem C30_top_off_once (m : Libm) (fuel N : ℕ) (s : ℕ → Sim n k) (u : ℕ → Sim.StepInput)
    (h : Sim.History m fuel N s u) (h0 : (s 0).timerTOT = 0) (hpos : 0 < (s 0).cfg.minutesPerStep)
    (hd : ∀ t < N, (u t).dr.too = true ∧ (u t).dr.tot = false) :
    ∀ t ≤ N, ((s t).timerTOT = 0 ↔ t = 0) := by
  have key : ∀ t ≤ N, (s t).timerTOT = t * (s 0).cfg.minutesPerStep := by
    intro t
    induction t with
    | zero => intro _; rw [h0]; simp
    | succ t ih =>
      intro ht
      rw [(step_untimed m fuel _ _ _ (h t (by omega))).1, history_cfg h t (by omega),
        ih (by omega), (hd t (by omega)).1, (hd t (by omega)).2]
      simp
      ring
  intro t ht
  rw [key t ht]
  simp [hpos.ne']

/-- **C30** (timed top-off). While a timed top-off signal is held, the timer is zero, so that heating
is forced, before every `p`-th step exactly, where `p` is the least number of steps that make up the
timer limit (at least one). -/
theorem C30_top_off_timed (m : Libm) (fuel N : ℕ) (s : ℕ → Sim n k) (u : ℕ → Sim.StepInput)
    (h : Sim.History m fuel N s u) (h0 : (s 0).timerTOT = 0) (hpos : 0 < (s 0).cfg.minutesPerStep)
    (hd : ∀ t < N, (u t).dr.tot = true) (p : ℕ)
    (hp : p = max 1 ⌈(s 0).cfg.timerLimitTOT / (s 0).cfg.minutesPerStep⌉₊) :
    ∀ t ≤ N, ((s t).timerTOT = 0 ↔ p ∣ t) := by
  set M := (s 0).cfg.minutesPerStep with hM
  set L := (s 0).cfg.timerLimitTOT with hL
  have hp1 : 0 < p := by omega
  have hge : ∀ q : ℕ, 0 < q → (L ≤ q * M ↔ p ≤ q) := by
    intro q hq
    rw [hp, max_le_iff, Nat.ceil_le, div_le_iff₀ hpos]
    exact ⟨fun h => ⟨hq, h⟩, fun h => h.2⟩
  have key : ∀ t ≤ N, (s t).timerTOT = (t % p : ℕ) * M := by
    intro t
    induction t with
    | zero => intro _; rw [h0]; simp
    | succ t ih =>
      intro ht
      rw [(step_untimed m fuel _ _ _ (h t (by omega))).1, history_cfg h t (by omega),
        ih (by omega), hd t (by omega)]
      have e : ((t % p : ℕ) : ℚ) * M + M = ((t % p + 1 : ℕ) : ℚ) * M := by push_cast; ring
      have hlt := Nat.mod_lt t hp1
      rw [← hM, ← hL, e]
      by_cases hw : p ≤ t % p + 1
      · have hw' : t % p + 1 = p := by omega
        have hz : (t + 1) % p = 0 := by
          have : (t + 1) % p = (t % p + 1) % p := by simp
          rw [this, hw', Nat.mod_self]
        rw [if_pos ⟨rfl, (hge _ (by omega)).mpr hw⟩, hz]
        simp
      · have hz : (t + 1) % p = t % p + 1 := by
          have : (t + 1) % p = (t % p + 1) % p := by simp
          rw [this, Nat.mod_eq_of_lt (by omega)]
        rw [if_neg (fun hc => hw ((hge _ (by omega)).mp hc.2)), hz]
        simp
  intro t ht
  rw [key t ht]
  simp only [mul_eq_zero, hpos.ne', or_false, Nat.cast_eq_zero]
  exact (Nat.dvd_iff_mod_eq_zero).symm

/-- **C30** (release). A step without a top-off signal sets the timer to zero, so that the next signal
forces heating again. -/
theorem C30_release_rearms (m : Libm) (fuel : ℕ) (s s' : Sim n k) (u : Sim.StepInput)
    (h : Sim.runOneStep m fuel s u = .ok s') (h1 : u.dr.too = false) (h2 : u.dr.tot = false) :
    s'.timerTOT = 0 := by
  rw [(step_untimed m fuel s s' u h).1, h1, h2]
  simp

/-- The sample system with a warm tank, which neither heat source would heat. -/
def warmSim : Sim 3 2 :=
  { sampleSim with tank := { sampleSim.tank with nodeTs := ![48, 48, 50, 51] } }

/-- The hypotheses are met, and forcing makes a difference: no signal, no heating; a top-off signal
heats at timer zero and not afterwards. -/
example : (∃ s', Sim.runOneStep sampleLibm 5 warmSim { sampleInput with draw_L := 0, inletVol2_L := 0 } =
      .ok s' ∧ (s'.st 0).energyOutput_kWh = 0 ∧ (s'.st 1).energyOutput_kWh = 0) ∧
    (∃ s', Sim.runOneStep sampleLibm 5 warmSim
        { sampleInput with draw_L := 0, inletVol2_L := 0, dr := ⟨false, false, true, false⟩ } =
      .ok s' ∧ 0 < (s'.st 0).energyOutput_kWh ∧ s'.timerTOT = 1) ∧
    (∃ s', Sim.runOneStep sampleLibm 5 { warmSim with timerTOT := 1 }
        { sampleInput with draw_L := 0, inletVol2_L := 0, dr := ⟨false, false, true, false⟩ } =
      .ok s' ∧ (s'.st 0).energyOutput_kWh = 0 ∧ (s'.st 1).energyOutput_kWh = 0) := by
  decide +kernel

end HPWH
