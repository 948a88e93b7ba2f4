import Verif.Lemmas.ScaleSim
import Verif.Props.Passes

/-! # C104: what a heater does depends on its size only in proportion -/

namespace HPWH

open _root_.HPWH.Units

variable {n k : ℕ}

/-! ## Extra heat -/

theorem resampledLoop_scale (a : ℚ) {N : ℕ} (v : Fin N → ℚ) (e : ℚ) (fuel i : ℕ) (p q x y : ℚ) :
    resampledLoop (fun j => a * v j) e fuel i p q (a * x) y
      = Except.map (fun r => (a * r.1, r.2)) (resampledLoop v e fuel i p q x y) := by
  induction fuel generalizing i p q x y with
  | zero => rfl
  | succ fuel ih =>
    rw [resampledLoop, resampledLoop]
    by_cases h1 : q < e
    · rw [if_pos h1, if_pos h1]
      by_cases h2 : i < N
      · rw [dif_pos h2, dif_pos h2]
        dsimp only
        rw [← ih]
        congr 1
        ring
      · rw [dif_neg h2, dif_neg h2]; rfl
    · rw [if_neg h1, if_neg h1]; rfl

theorem getResampledValue_scale (a : ℚ) {N : ℕ} (v : Fin N → ℚ) (x y : ℚ) :
    getResampledValue (fun j => a * v j) x y = Except.map (a * ·) (getResampledValue v x y) := by
  unfold getResampledValue
  dsimp only
  have h := fun e fuel i p q => resampledLoop_scale a v e fuel i p q 0 0
  simp only [mul_zero] at h
  rw [h]
  cases resampledLoop v _ (N + 2) _ _ _ 0 0 with
  | error e => rfl
  | ok r =>
    refine congrArg Except.ok ?_
    dsimp only
    split_ifs
    · ring
    · ring

theorem resampleBody_scale (a : ℚ) {M N : ℕ} (v : Fin N → ℚ) (i : ℕ) (hi : i < M) (b : ℚ) (values : Fin M → ℚ) :
    resampleBody (fun j => a * v j) i hi b (fun j => a * values j)
      = Except.map (fun r => (r.1, r.2.1, fun j => a * r.2.2 j)) (resampleBody v i hi b values) := by
  unfold resampleBody
  dsimp only
  by_cases h1 : (⌊(i : ℚ) * ((N : ℚ) / M)⌋₊ : ℚ) + 1 < ((i : ℚ) + 1) * ((N : ℚ) / M)
  · rw [if_pos h1, if_pos h1, getResampledValue_scale]
    cases getResampledValue v b (((i + 1 : ℕ) : ℚ) / M) with
    | error e => rfl
    | ok x =>
      refine congrArg Except.ok ?_
      simp only [Prod.mk.injEq, true_and]
      funext j
      by_cases hj : j = ⟨i, hi⟩
      · subst hj; simp only [Function.update_self]
      · simp only [Function.update_of_ne hj]
  · rw [if_neg h1, if_neg h1]
    by_cases h2 : ⌊(i : ℚ) * ((N : ℚ) / M)⌋₊ < N
    · rw [dif_pos h2, dif_pos h2]
      generalize (if ⌊1 / ((N : ℚ) / M)⌋₊ > 1 then ⌈(⌊(i : ℚ) * ((N : ℚ) / M)⌋₊ : ℚ) / ((N : ℚ) / M)⌉₊ else i) = first
      generalize (if ⌊1 / ((N : ℚ) / M)⌋₊ > 1 then _ else _) = count
      by_cases h3 : first + count ≤ M
      · rw [if_pos h3, if_pos h3]
        refine congrArg Except.ok ?_
        simp only [Prod.mk.injEq, true_and]
        funext j
        simp only [fillN]
        split_ifs <;> rfl
      · rw [if_neg h3, if_neg h3]; rfl
    · rw [dif_neg h2, dif_neg h2]; rfl

theorem resampleLoop_scale (a : ℚ) {M N : ℕ} (v : Fin N → ℚ) (fuel i : ℕ) (b : ℚ) (values : Fin M → ℚ) :
    resampleLoop (fun j => a * v j) fuel i b (fun j => a * values j)
      = Except.map (fun r j => a * r j) (resampleLoop v fuel i b values) := by
  induction fuel generalizing i b values with
  | zero => rfl
  | succ fuel ih =>
    rw [resampleLoop, resampleLoop]
    by_cases h : i < M
    · rw [dif_pos h, dif_pos h, resampleBody_scale]
      cases resampleBody v i h b values with
      | error e => rfl
      | ok r => exact ih _ _ _
    · rw [dif_neg h, dif_neg h]; rfl

theorem resampleExtensive_scale (a : ℚ) {M N : ℕ} (v : Fin N → ℚ) :
    resampleExtensive (m := M) (fun _ => 0) (fun j => a * v j)
      = Except.map (fun r j => a * r j) (resampleExtensive (m := M) (fun _ => 0) v) := by
  unfold resampleExtensive
  have e : resample (m := M) (fun _ => 0) (fun j => a * v j)
      = Except.map (fun r j => a * r j) (resample (m := M) (fun _ => 0) v) := by
    unfold resample
    have h := resampleLoop_scale a v (M + 1) 0 0 (fun _ : Fin M => 0)
    simp only [mul_zero] at h
    rw [h]
    split_ifs
    · exact congrArg Except.ok (by simp only [mul_zero])
    · rfl
  rw [e]
  cases resample (m := M) (fun _ => 0) v with
  | error e => rfl
  | ok r =>
    refine congrArg Except.ok ?_
    funext j
    ring

theorem resampleExtensive_list_scale (a : ℚ) (M : ℕ) (l : List ℚ) :
    resampleExtensive (m := M) (fun _ => 0) (fun i : Fin (l.map (a * ·)).length => (l.map (a * ·)).get i)
      = Except.map (fun r j => a * r j)
          (resampleExtensive (m := M) (fun _ => 0) (fun i : Fin l.length => l.get i)) := by
  have key : ∀ (N : ℕ) (f : Fin N → ℚ) (h : l.length = N), (∀ i, f i = a * l.get (i.cast h.symm)) →
      resampleExtensive (m := M) (fun _ => 0) f = Except.map (fun r j => a * r j)
          (resampleExtensive (m := M) (fun _ => 0) (fun i : Fin l.length => l.get i)) := by
    rintro N f rfl hf
    rw [show f = fun i => a * l.get i from funext hf]
    exact resampleExtensive_scale a _
  refine key _ _ (by simp) fun i => ?_
  simp

theorem modifyHeatDistribution_scale {a : ℚ} (ha : 0 < a) (m : Libm) (T : Nodes n ℚ) (setpoint : ℚ) (w : List ℚ) :
    Sim.modifyHeatDistribution m T setpoint (w.map (a * ·))
      = Except.map (List.map (a * ·)) (Sim.modifyHeatDistribution m T setpoint w) := by
  unfold Sim.modifyHeatDistribution
  have e : (w.map (a * ·)).sum = a * w.sum := by
    induction w with
    | nil => simp
    | cons x xs ih => simp only [List.map_cons, List.sum_cons, ih]; ring
  have e2 : (w.map (a * ·)).map (· / (a * w.sum)) = w.map (· / w.sum) := by
    rw [List.map_map]
    exact List.map_congr_left fun x _ => mul_div_same ha x w.sum
  dsimp only
  rw [e, e2]
  by_cases h : w.sum = 0
  · rw [if_pos ((mul_zero_same ha _).mpr h), if_pos h]; rfl
  · rw [if_neg (fun h' => h ((mul_zero_same ha _).mp h')), if_neg h, res_map_bind]
    refine res_bind_congr fun wd => ?_
    split_ifs
    · rw [res_map_bind]
      refine res_bind_congr fun d => congrArg Except.ok ?_
      rw [List.map_map]
      refine List.map_congr_left fun x _ => ?_
      simp only [Function.comp]
      ring
    · rfl

theorem Sim.extraLoop_scale {a : ℚ} (ha : 0 < a) (minutes : ℚ) (w : Nodes n ℚ) (i : ℕ) (hi : i ≤ n + 1) (tot : ℚ)
    (t : Tank n) :
    Sim.extraLoop minutes (fun j => a * w j) i hi (a * tot) (t.scale a)
      = (a * (Sim.extraLoop minutes w i hi tot t).1, (Sim.extraLoop minutes w i hi tot t).2.scale a) := by
  induction i generalizing tot t with
  | zero => rfl
  | succ i ih =>
    rw [Sim.extraLoop, Sim.extraLoop]
    have e1 : KWH_TO_BTU (W_TO_KW (a * w ⟨i, by omega⟩)) = a * KWH_TO_BTU (W_TO_KW (w ⟨i, by omega⟩)) := by
      simp only [KWH_TO_BTU, W_TO_KW]; ring
    have e2 : BTU_TO_KJ (a * KWH_TO_BTU (W_TO_KW (w ⟨i, by omega⟩)) * minutes / minPerHr)
        = a * BTU_TO_KJ (KWH_TO_BTU (W_TO_KW (w ⟨i, by omega⟩)) * minutes / minPerHr) := by
      simp only [BTU_TO_KJ]; ring
    dsimp only
    rw [e1, e2, ← mul_add, Tank.scale_addExtraHeatAboveNode ha]
    by_cases h : w ⟨i, by omega⟩ = 0
    · rw [if_neg (by simp [h]), if_neg (by simp [h])]; exact ih _ _ _
    · rw [if_pos (by simp [h, ha.ne']), if_pos (by simp [h])]; exact ih _ _ _

namespace Sim

theorem scale_extraStep {a : ℚ} (ha : 0 < a) (m : Libm) (s : Sim n k) (w : List ℚ) :
    (s.scale a).extraStep m (w.map (a * ·)) = Except.map (scale a) (s.extraStep m w) := by
  have heat : (s.scale a).addExtraHeat m (w.map (a * ·)) = Except.map (scale a) (s.addExtraHeat m w) := by
    unfold addExtraHeat
    have e1 : (s.scale a).tank = s.tank.scale a := rfl
    have e2 : (s.scale a).setpoint = s.setpoint := rfl
    have e3 : (s.scale a).cfg.minutesPerStep = s.cfg.minutesPerStep := rfl
    have e4 : (s.tank.scale a).nodeTs = s.tank.nodeTs := rfl
    rw [e1, e2, e3, e4, modifyHeatDistribution_scale ha, res_bind_map, res_map_bind]
    refine res_bind_congr fun mod => ?_
    rw [resampleExtensive_list_scale, res_bind_map, res_map_bind]
    refine res_bind_congr fun nodes => congrArg Except.ok ?_
    have e5 := Sim.extraLoop_scale ha s.cfg.minutesPerStep nodes (n + 1) le_rfl 0 s.tank
    rw [mul_zero] at e5
    rw [e5]
    have e6 : BTU_TO_KWH (a * (extraLoop s.cfg.minutesPerStep nodes (n + 1) le_rfl 0 s.tank).1 * s.cfg.minutesPerStep
        / minPerHr) = a * BTU_TO_KWH ((extraLoop s.cfg.minutesPerStep nodes (n + 1) le_rfl 0 s.tank).1
          * s.cfg.minutesPerStep / minPerHr) := by simp only [BTU_TO_KWH]; ring
    simp only [e6]
    rfl
  unfold extraStep
  have e : (w.map (a * ·) ≠ []) = (w ≠ []) := by simp
  simp only [e, heat, res_bind_map, scale_plant, Plant.scale_updateSoC]
  split_ifs
  · simp only [res_map_bind]; rfl
  · rfl

/-! ## The step -/

theorem scale_resetOutputs (a : ℚ) (s : Sim n k) : (s.scale a).resetOutputs = s.resetOutputs.scale a := by
  simp only [resetOutputs, scale, Plant.scale, Tank.scale, SourceState.scale, mul_zero]

theorem scale_initLocation (a : ℚ) (s : Sim n k) (x : ℚ) :
    (s.scale a).initLocation x = (s.initLocation x).scale a := by
  unfold initLocation
  have e1 : (s.scale a).cfg.doTempDepression = s.cfg.doTempDepression := rfl
  have e2 : (s.scale a).locationT = s.locationT := rfl
  rw [e1, e2]
  split_ifs <;> rfl

theorem scale_trackLocation (a : ℚ) (s : Sim n k) (x : ℚ) :
    (s.scale a).trackLocation x = (s.trackLocation x).scale a := by
  unfold trackLocation
  have e1 : (s.scale a).cfg.doTempDepression = s.cfg.doTempDepression := rfl
  rw [e1]
  by_cases h : s.cfg.doTempDepression = true
  · rw [if_pos h, if_pos h]; rfl
  · rw [if_neg h, if_neg h]

theorem scale_settleOutputs (a : ℚ) (s : Sim n k) : (s.scale a).settleOutputs = s.settleOutputs.scale a := by
  have split : ∀ s : Sim n k, s.settleOutputs = { s with
      st := s.settleOutputs.st
      standbyLosses_kWh := KJ_TO_KWH s.tank.standbyLosses_kJ
      energyRemoved_kWh := s.energyRemoved_kWh +
        ∑ i, ((s.settleOutputs.st i).energyOutput_kWh - (s.settleOutputs.st i).energyInput_kWh) } := fun _ => rfl
  have e : (s.scale a).settleOutputs.st = fun i => (s.settleOutputs.st i).scale a := by
    funext i
    have e1 : ((s.scale a).cfg.src i).kind = (s.cfg.src i).kind.scale a := rfl
    simp only [settleOutputs, e1]
    cases (s.cfg.src i).kind with
    | resistance w => rfl
    | condenser c =>
      simp only [SourceKind.scale, scale, SimCfg.scale, SourceState.scale, CondCfg.scale, SourceState.mk.injEq, true_and,
        and_true]
      ring
  rw [split (s.scale a), e, split s]
  generalize s.settleOutputs.st = st
  simp only [scale, Plant.scale, Tank.scale, SourceState.scale, Sim.mk.injEq, true_and, KJ_TO_KWH, and_true]
  refine ⟨?_, by ring⟩
  rw [mul_add, Finset.mul_sum]
  congr 1
  exact Finset.sum_congr rfl fun i _ => by ring

theorem scale_updateTimer (a : ℚ) (s : Sim n k) (dr : DR) : (s.scale a).updateTimer dr = (s.updateTimer dr).scale a :=
  rfl

end Sim

/-- **C104.** Make a heater `a` times as large (its water, losses, powers and flows), draw `a` times as much water and
add `a` times as much extra heat: the step succeeds or fails exactly as before, and it leaves the `a` times larger
heater in the condition in which the step leaves the original one. All temperatures, decisions and run times are the
same, and all energies and volumes are `a` times as large (`C104_step_outputs`). -/
theorem C104_step (m : Libm) (fuel : ℕ) (s : Sim n k) (u : Sim.StepInput) (a : ℚ) (ha : 0 < a) :
    (s.scale a).runOneStep m fuel (u.scale a) = Except.map (Sim.scale a) (s.runOneStep m fuel u) := by
  unfold Sim.runOneStep
  have e1 : (s.scale a).cfg.doTempDepression = s.cfg.doTempDepression := rfl
  have e2 : (s.scale a).cfg.minutesPerStep = s.cfg.minutesPerStep := rfl
  have e3 : (s.scale a).cfg.hoursPerStep = s.cfg.hoursPerStep := rfl
  have e4 : (s.scale a).cfg.secondsPerStep = s.cfg.secondsPerStep := rfl
  simp only [e1, e2, e3, e4, Sim.scale_resetOutputs, Sim.scale_initLocation, Sim.StepInput.scale]
  have e5 : ∀ x : Sim n k, (x.scale a).locationT = x.locationT := fun _ => rfl
  have e6 : ∀ x : Sim n k, (x.scale a).tank = x.tank.scale a := fun _ => rfl
  have e7 : ∀ x : Sim n k, (x.scale a).inletT = x.inletT := fun _ => rfl
  simp only [e5, e6, e7, Tank.scale_updateNodes ha]
  by_cases h : s.cfg.doTempDepression = true ∧ s.cfg.minutesPerStep ≠ 1
  · rw [if_pos h, if_pos h]; rfl
  · rw [if_neg h, if_neg h, res_map_bind, res_bind_map]
    refine res_bind_congr fun tank => ?_
    generalize s.resetOutputs.initLocation u.tankAmbient = s0
    have e8 := Plant.scale_updateSoC a ({ s0.toPlant with tank := tank } : Plant n)
    refine (congrArg (· >>= _) e8).trans ?_
    rw [res_map_bind, res_bind_map]
    refine res_bind_congr fun p => ?_
    have e9 := Sim.scale_control ha m fuel u.dr (if s.cfg.doTempDepression = true then s0.locationT else u.sourceAmbient)
      ({ s0 with toPlant := p } : Sim n k)
    refine (congrArg (· >>= _) e9).trans ?_
    rw [res_map_bind, res_bind_map]
    refine res_bind_congr fun s1 => ?_
    rw [Sim.scale_extraStep ha, res_bind_map, res_map_bind]
    refine res_bind_congr fun s2 => congrArg Except.ok ?_
    rw [Sim.scale_trackLocation, Sim.scale_settleOutputs, Sim.scale_updateTimer]

/-- Enlarging keeps what a user reads from a heater in proportion. -/
theorem Sim.scale_proportional (a : ℚ) (t : Sim n k) : Spec.Proportional a t (t.scale a) where
  nodes := rfl
  outlet := rfl
  charge := rfl
  setpoint := rfl
  location := rfl
  inflow := rfl
  outflow := rfl
  on _ := rfl
  locked _ := rfl
  runtime _ := rfl
  input _ := rfl
  output _ := rfl
  losses := rfl
  removed := rfl
  extra := rfl
  volume := rfl
  content := by
    simp only [Tank.heatContent, Tank.averageNodeT, Tank.numNodes, Sim.scale, Plant.scale, Tank.scale]
    ring

/-- **C104**, read from outside: the same temperatures, decisions and times, energies and volumes in proportion. -/
theorem C104_step_outputs (m : Libm) (fuel : ℕ) (s t : Sim n k) (u : Sim.StepInput) (a : ℚ) (ha : 0 < a)
    (h : s.runOneStep m fuel u = .ok t) :
    ∃ t', (s.scale a).runOneStep m fuel (u.scale a) = .ok t' ∧ Spec.Proportional a t t' :=
  ⟨t.scale a, by rw [C104_step m fuel s u a ha, h]; rfl, t.scale_proportional a⟩

/-- **C104**, failures: a larger heater under a larger load fails exactly when the original one does, in the same
way. -/
theorem C104_step_fails (m : Libm) (fuel : ℕ) (s : Sim n k) (u : Sim.StepInput) (a : ℚ) (ha : 0 < a) (e : Err) :
    (s.scale a).runOneStep m fuel (u.scale a) = .error e ↔ s.runOneStep m fuel u = .error e := by
  rw [C104_step m fuel s u a ha]
  cases s.runOneStep m fuel u with
  | error e' => exact Iff.rfl
  | ok t =>
    constructor
    · intro h; cases h
    · intro h; cases h

/-! ## Runs -/

/-- Sums over a run, of a heater `a` times as large under `a` times the draws; the outlet temperatures are weighted
with the draws. -/
def Sim.RunSums.scale (a : ℚ) (r : Sim.RunSums k) : Sim.RunSums k where
  removed := a * r.removed
  standby := a * r.standby
  outlet := a * r.outlet
  draw := a * r.draw
  runtime := r.runtime
  input := fun i => a * r.input i
  output := fun i => a * r.output i

theorem Sim.scale_runLoop {a : ℚ} (ha : 0 < a) (m : Libm) (fuel : ℕ) (us : List Sim.RunInput) (s : Sim n k)
    (r : Sim.RunSums k) :
    Sim.runLoop m fuel (us.map (Sim.RunInput.scale a)) (s.scale a) (r.scale a)
      = Except.map (fun p => (p.1.scale a, p.2.scale a)) (Sim.runLoop m fuel us s r) := by
  induction us generalizing s r with
  | nil => rfl
  | cons u us ih =>
    rw [List.map_cons, Sim.runLoop, Sim.runLoop]
    have e1 : (s.scale a).runOneStepAt m fuel (u.scale a) = Except.map (Sim.scale a) (s.runOneStepAt m fuel u) := by
      have := C104_step m fuel (s.setInletT u.inletT) u.step a ha
      rw [Sim.runOneStepAt, Sim.runOneStepAt, ← this]
      congr 1
      simp only [Sim.RunInput.step, Sim.RunInput.scale, Sim.StepInput.scale, mul_zero, List.map_nil]
    rw [e1, res_bind_map, res_map_bind]
    refine res_bind_congr fun s1 => ?_
    rw [← ih]
    congr 1
    simp only [Sim.RunSums.add, Sim.RunSums.scale, Sim.scale, Plant.scale, Tank.scale, SourceState.scale,
      Sim.RunInput.scale, mul_add, Sim.RunSums.mk.injEq, true_and, and_true]
    ring

/-- **C104.** The same over a run of any length: the larger heater under the larger draws gives the same temperatures
and times and `a` times the energies. -/
theorem C104_run (m : Libm) (fuel : ℕ) (s : Sim n k) (us : List Sim.RunInput) (a : ℚ) (ha : 0 < a) :
    (s.scale a).runNSteps m fuel (us.map (Sim.RunInput.scale a)) = Except.map (Sim.scale a) (s.runNSteps m fuel us) := by
  unfold Sim.runNSteps
  have e := Sim.scale_runLoop ha m fuel us s ⟨0, 0, 0, 0, fun _ => 0, fun _ => 0, fun _ => 0⟩
  simp only [Sim.RunSums.scale, mul_zero] at e
  rw [e, res_bind_map, res_map_bind]
  refine res_bind_congr fun r => ?_
  simp only [mul_zero_same ha, mul_div_same ha]
  split_ifs
  · rfl
  · rfl

/-- **C104**, runs read from outside. -/
theorem C104_run_outputs (m : Libm) (fuel : ℕ) (s t : Sim n k) (us : List Sim.RunInput) (a : ℚ) (ha : 0 < a)
    (h : s.runNSteps m fuel us = .ok t) :
    ∃ t', (s.scale a).runNSteps m fuel (us.map (Sim.RunInput.scale a)) = .ok t' ∧ Spec.Proportional a t t' :=
  ⟨t.scale a, by rw [C104_run m fuel s us a ha, h]; rfl, t.scale_proportional a⟩

/-! ## Cases that meet the hypotheses -/

/-- A step with a draw, a second inlet, extra heat, losses and a heat pump that runs: for the heater of four times the
size as well. -/
example : (∃ s', Sim.runOneStep sampleLibm 5 sampleSim sampleInput = .ok s' ∧
      0 < (s'.st 0).energyOutput_kWh ∧ 0 < s'.extraEnergyInput_kWh ∧ s'.standbyLosses_kWh ≠ 0) ∧
    ∃ s', Sim.runOneStep sampleLibm 5 (sampleSim.scale 4) (sampleInput.scale 4) = .ok s' ∧
      0 < (s'.st 0).energyOutput_kWh ∧ 0 < s'.extraEnergyInput_kWh ∧ s'.standbyLosses_kWh ≠ 0 := by
  decide +kernel

/-- The load has to grow with the heater: four times the size under the same draw leaves the bottom of the tank
warmer. -/
theorem C104_load_matters :
    (∃ s', Sim.runOneStep sampleLibm 5 sampleSim sampleInput = .ok s' ∧ s'.tank.nodeTs 0 < 21) ∧
    ∃ s', Sim.runOneStep sampleLibm 5 (sampleSim.scale 4) sampleInput = .ok s' ∧ 21 < s'.tank.nodeTs 0 := by
  decide +kernel

end HPWH
