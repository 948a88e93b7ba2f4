import Verif.Spec.Memory
import Verif.Props.Run

/-! # C99: what a simulator does next depends on its present state only -/

namespace HPWH

open Sim

variable {n k : ℕ}

theorem runOneStep_congr (m : Libm) (fuel : ℕ) (s s' : Sim n k) (u : StepInput) (h : s.SameState s')
    (hi : s.inletT = s'.inletT) (hh : s.haveInletT = s'.haveInletT) :
    runOneStep m fuel s u = runOneStep m fuel s' u := by
  obtain ⟨h1, h2, h3, h4, h5, h6, h7, h8, h9, h10, h11⟩ := h
  obtain ⟨⟨⟨tc, T, l, o⟩, sp, it, hit, sc, soc, ci, co, ev⟩, cfg, st, ih, loc, tim, er, sl, ee⟩ := s
  obtain ⟨⟨⟨tc', T', l', o'⟩, sp', it', hit', sc', soc', ci', co', ev'⟩, cfg', st', ih', loc', tim', er', sl', ee'⟩ := s'
  simp only at h1 h2 h3 h4 h5 h6 h7 h8 h9 h10 h11 hi hh
  subst h1 h2 h3 h4 h5 h9 h10 h11 hi hh
  have e : (fun i => { st i with runtime_min := 0, energyInput_kWh := 0, energyOutput_kWh := 0 } : Fin k → SourceState) =
      fun i => { st' i with runtime_min := 0, energyInput_kWh := 0, energyOutput_kWh := 0 } := by
    funext i
    simp only [h7 i, h8 i]
  cases sc with
  | none =>
    have := h6 rfl
    subst this
    unfold runOneStep resetOutputs
    simp only [e]
  | some c =>
    unfold runOneStep resetOutputs initLocation Plant.updateSoC
    simp only [e]
    by_cases hl : cfg.doTempDepression = true ∧ loc = uninitialisedLocation
    · simp only [hl, and_self, if_true]
      rfl
    · simp only [hl, if_false]
      rfl

/-- **C99.** Two simulators in the same state take the same step: whatever they reported before, whatever happened to
bring them there, they succeed or fail alike and end equal in everything, state and outputs. -/
theorem C99_step (m : Libm) (fuel : ℕ) (s s' : Sim n k) (u : RunInput) (h : s.SameState s') :
    runOneStepAt m fuel s u = runOneStepAt m fuel s' u :=
  runOneStep_congr m fuel _ _ u.step
    { settings := h.settings, tank := h.tank, water := h.water, setpoint := h.setpoint, socControl := h.socControl,
      soc := h.soc, switches := h.switches, locks := h.locks, heating := h.heating, timer := h.timer, room := h.room }
    rfl rfl

/-- **C99.** The same for steps with a second inlet, extra heat or the inlet temperature of an earlier step. -/
theorem C99_step_full (m : Libm) (fuel : ℕ) (s s' : Sim n k) (u : StepInput) (h : s.SameState s')
    (hi : s.inletT = s'.inletT) (hh : s.haveInletT = s'.haveInletT) :
    runOneStep m fuel s u = runOneStep m fuel s' u := runOneStep_congr m fuel s s' u h hi hh

theorem runLoop_congr (m : Libm) (fuel : ℕ) (us : List RunInput) (hne : us ≠ []) (s s' : Sim n k) (a : RunSums k)
    (h : s.SameState s') : runLoop m fuel us s a = runLoop m fuel us s' a := by
  cases us with
  | nil => exact absurd rfl hne
  | cons u us => rw [runLoop, runLoop, C99_step m fuel s s' u h]

theorem runNSteps_nil (m : Libm) (fuel : ℕ) (s : Sim n k) : runNSteps m fuel s [] = .error .nan := by
  simp [runNSteps, runLoop, bind, Except.bind]

/-- **C99.** Two simulators in the same state make the same run, of any length. -/
theorem C99_run (m : Libm) (fuel : ℕ) (s s' : Sim n k) (us : List RunInput) (h : s.SameState s') :
    runNSteps m fuel s us = runNSteps m fuel s' us := by
  by_cases hne : us = []
  · rw [hne, runNSteps_nil, runNSteps_nil]
  · unfold runNSteps
    rw [runLoop_congr m fuel us hne s s' _ h]

/-- Sums of two parts of a run. -/
def Sim.RunSums.plus {k : ℕ} (a b : RunSums k) : RunSums k where
  removed := a.removed + b.removed
  standby := a.standby + b.standby
  outlet := a.outlet + b.outlet
  draw := a.draw + b.draw
  runtime := fun j => a.runtime j + b.runtime j
  input := fun j => a.input j + b.input j
  output := fun j => a.output j + b.output j

theorem Sim.RunSums.plus_add (a b : RunSums k) (s : Sim n k) (u : RunInput) :
    (a.plus b).add s u = a.plus (b.add s u) := by
  simp only [RunSums.plus, RunSums.add, add_assoc]

theorem runLoop_shift (m : Libm) (fuel : ℕ) (us : List RunInput) (s : Sim n k) (a b : RunSums k)
    (r : Sim n k × RunSums k) (h : runLoop m fuel us s b = .ok r) :
    runLoop m fuel us s (a.plus b) = .ok (r.1, a.plus r.2) := by
  induction us generalizing s b with
  | nil => cases h; rfl
  | cons u us ih =>
    rw [runLoop, bind_ok_iff] at h ⊢
    obtain ⟨s1, h1, h2⟩ := h
    exact ⟨s1, h1, by rw [RunSums.plus_add]; exact ih s1 _ h2⟩

theorem runLoop_append (m : Libm) (fuel : ℕ) (us vs : List RunInput) (s : Sim n k) (a : RunSums k) :
    runLoop m fuel (us ++ vs) s a = runLoop m fuel us s a >>= fun r => runLoop m fuel vs r.1 r.2 := by
  induction us generalizing s a with
  | nil => rfl
  | cons u us ih =>
    rw [List.cons_append, runLoop, runLoop]
    cases runOneStepAt m fuel s u with
    | error e => rfl
    | ok s1 => exact ih s1 _

theorem runLoop_draw (m : Libm) (fuel : ℕ) (us : List RunInput) (s : Sim n k) (a : RunSums k)
    (r : Sim n k × RunSums k) (h : runLoop m fuel us s a = .ok r) : r.2.draw = a.draw + drawn us := by
  induction us generalizing s a with
  | nil => cases h; simp [drawn]
  | cons u us ih =>
    rw [runLoop, bind_ok_iff] at h
    obtain ⟨s1, -, h2⟩ := h
    rw [ih s1 _ h2]
    simp [RunSums.add, drawn, add_assoc]

theorem runLoop_indep (m : Libm) (fuel : ℕ) (us : List RunInput) (s : Sim n k) (a b : RunSums k)
    (r : Sim n k × RunSums k) (h : runLoop m fuel us s a = .ok r) : ∃ r', runLoop m fuel us s b = .ok r' := by
  induction us generalizing s a b with
  | nil => exact ⟨_, rfl⟩
  | cons u us ih =>
    rw [runLoop, bind_ok_iff] at h
    obtain ⟨s1, h1, h2⟩ := h
    obtain ⟨r', hr'⟩ := ih s1 _ (b.add s1 u) h2
    exact ⟨r', by rw [runLoop, bind_ok_iff]; exact ⟨s1, h1, hr'⟩⟩

/-- No sums yet, src/HPWH.cc:597-604. -/
def Sim.RunSums.none : RunSums k := ⟨0, 0, 0, 0, fun _ => 0, fun _ => 0, fun _ => 0⟩

theorem Sim.RunSums.plus_none (a : RunSums k) : a.plus RunSums.none = a := by
  simp [RunSums.plus, RunSums.none]

/-- The simulator `runNSteps` leaves. -/
def withSums (s : Sim n k) (a : RunSums k) : Sim n k :=
  { s with
    energyRemoved_kWh := a.removed
    standbyLosses_kWh := a.standby
    tank := { s.tank with outletT := a.outlet / a.draw }
    st := fun i => { s.st i with
      runtime_min := a.runtime i
      energyInput_kWh := a.input i
      energyOutput_kWh := a.output i } }

theorem runNSteps_ok (m : Libm) (fuel : ℕ) (s a : Sim n k) (us : List RunInput) :
    runNSteps m fuel s us = .ok a ↔
      ∃ r, runLoop m fuel us s RunSums.none = .ok r ∧ drawn us ≠ 0 ∧ a = withSums r.1 r.2 := by
  unfold runNSteps
  rw [bind_ok_iff]
  constructor
  · rintro ⟨r, hr, h⟩
    have hd := runLoop_draw m fuel us s _ r hr
    simp only [zero_add] at hd
    split_ifs at h with h0
    exact ⟨r, hr, by rw [← hd]; exact h0, (Except.ok.inj h).symm⟩
  · rintro ⟨r, hr, h0, rfl⟩
    have hd := runLoop_draw m fuel us s _ r hr
    simp only [RunSums.none, zero_add] at hd
    exact ⟨r, hr, by rw [if_neg (by rw [hd]; exact h0)]; rfl⟩

theorem withSums_same (s : Sim n k) (a : RunSums k) : (withSums s a).SameState s where
  settings := rfl
  tank := rfl
  water := rfl
  setpoint := rfl
  socControl := rfl
  soc := fun _ => rfl
  switches := fun _ => rfl
  locks := fun _ => rfl
  heating := rfl
  timer := rfl
  room := rfl

theorem drawn_append (us vs : List RunInput) : drawn (us ++ vs) = drawn us + drawn vs := by
  simp [drawn]

/-- **C99.** A run may be cut anywhere: two runs one after the other (each with some draw) leave the simulator in the
state in which the whole run leaves it, their energies, losses and run times add up to those of the whole run, and its
outlet temperature is the mean of theirs weighted with the volumes. -/
theorem C99_split (m : Libm) (fuel : ℕ) (s a b : Sim n k) (us vs : List RunInput)
    (h1 : runNSteps m fuel s us = .ok a) (h2 : runNSteps m fuel a vs = .ok b) (hd : drawn us + drawn vs ≠ 0) :
    ∃ c, runNSteps m fuel s (us ++ vs) = .ok c ∧ c.SameState b ∧ c.inletT = b.inletT ∧
      c.energyRemoved_kWh = a.energyRemoved_kWh + b.energyRemoved_kWh ∧
      c.standbyLosses_kWh = a.standbyLosses_kWh + b.standbyLosses_kWh ∧
      (∀ i, (c.st i).runtime_min = (a.st i).runtime_min + (b.st i).runtime_min) ∧
      (∀ i, (c.st i).energyInput_kWh = (a.st i).energyInput_kWh + (b.st i).energyInput_kWh) ∧
      (∀ i, (c.st i).energyOutput_kWh = (a.st i).energyOutput_kWh + (b.st i).energyOutput_kWh) ∧
      c.tank.outletT * (drawn us + drawn vs) = a.tank.outletT * drawn us + b.tank.outletT * drawn vs := by
  obtain ⟨r, hr, hu, rfl⟩ := (runNSteps_ok m fuel s a us).mp h1
  obtain ⟨q, hq, hv, rfl⟩ := (runNSteps_ok m fuel _ b vs).mp h2
  have hne : vs ≠ [] := by rintro rfl; exact hv rfl
  rw [runLoop_congr m fuel vs hne _ _ _ (withSums_same r.1 r.2)] at hq
  have hw := runLoop_shift m fuel vs r.1 r.2 RunSums.none q hq
  rw [RunSums.plus_none] at hw
  have hall : runLoop m fuel (us ++ vs) s RunSums.none = .ok (q.1, r.2.plus q.2) := by
    rw [runLoop_append, hr]
    exact hw
  have dr := runLoop_draw m fuel us s _ r hr
  have dq := runLoop_draw m fuel vs r.1 _ q hq
  simp only [RunSums.none, zero_add] at dr dq
  refine ⟨_, (runNSteps_ok m fuel s _ _).mpr ⟨_, hall, by rw [drawn_append]; exact hd, rfl⟩, ?_, rfl, rfl, rfl,
    fun _ => rfl, fun _ => rfl, fun _ => rfl, ?_⟩
  · exact { settings := rfl, tank := rfl, water := rfl, setpoint := rfl, socControl := rfl, soc := fun _ => rfl,
            switches := fun _ => rfl, locks := fun _ => rfl, heating := rfl, timer := rfl, room := rfl }
  · show (r.2.outlet + q.2.outlet) / (r.2.draw + q.2.draw) * (drawn us + drawn vs) =
      r.2.outlet / r.2.draw * drawn us + q.2.outlet / q.2.draw * drawn vs
    rw [dr, dq, div_mul_cancel₀ _ hd, div_mul_cancel₀ _ hu, div_mul_cancel₀ _ hv]

/-- **C99.** Conversely, where the whole run succeeds and both parts draw water, so do the two runs one after the
other. -/
theorem C99_split_conv (m : Libm) (fuel : ℕ) (s c : Sim n k) (us vs : List RunInput)
    (h : runNSteps m fuel s (us ++ vs) = .ok c) (hu : drawn us ≠ 0) (hv : drawn vs ≠ 0) :
    ∃ a b, runNSteps m fuel s us = .ok a ∧ runNSteps m fuel a vs = .ok b := by
  obtain ⟨r, hr, hd, rfl⟩ := (runNSteps_ok m fuel s c _).mp h
  rw [runLoop_append, bind_ok_iff] at hr
  obtain ⟨q, hq, hr⟩ := hr
  obtain ⟨r', hr'⟩ := runLoop_indep m fuel vs q.1 q.2 RunSums.none r hr
  have hne : vs ≠ [] := by rintro rfl; exact hv rfl
  rw [← runLoop_congr m fuel vs hne _ _ _ (withSums_same q.1 q.2)] at hr'
  exact ⟨_, _, (runNSteps_ok m fuel s _ us).mpr ⟨q, hq, hu, rfl⟩, (runNSteps_ok m fuel _ _ vs).mpr ⟨r', hr', hv, rfl⟩⟩

/-! Concrete cases. -/

/-- The sample after a step, and the sample with the reports wiped: the same state, different reports. -/
example : ∃ s, runOneStepAt sampleLibm 5 sampleSim ⟨10, 8, 20, 15, ⟨false, false, false, false⟩⟩ = .ok s ∧
    (s.st 0).energyOutput_kWh ≠ (s.resetOutputs.st 0).energyOutput_kWh ∧ s.tank.outletT ≠ s.resetOutputs.tank.outletT ∧
    s.tank.nodeTs ≠ sampleSim.tank.nodeTs := by
  decide +kernel

example (s : Sim n k) : s.SameState s.resetOutputs where
  settings := rfl
  tank := rfl
  water := rfl
  setpoint := rfl
  socControl := rfl
  soc := fun _ => rfl
  switches := fun _ => rfl
  locks := fun _ => rfl
  heating := rfl
  timer := rfl
  room := rfl

/-- The sample run cut after its first step. -/
example : ∃ a, runNSteps sampleLibm 5 sampleSim (sampleRun.take 1) = .ok a ∧
    (∃ b, runNSteps sampleLibm 5 a (sampleRun.drop 1) = .ok b ∧ 0 < (b.st 1).energyOutput_kWh) ∧
    drawn (sampleRun.take 1) + drawn (sampleRun.drop 1) = 12 := by
  decide +kernel

end HPWH
