import Verif.Spec.Inputs
import Verif.Props.Recovery
import Verif.Props.Commands

/-! # C107: inputs of a step that play no part -/

namespace HPWH

open Spec
open _root_.HPWH.Units

variable {n k : ℕ}

theorem bind_congr_ok {α β : Type} {x : Res α} {f g : α → Res β} (h : ∀ a, x = .ok a → f a = g a) :
    (x >>= f) = (x >>= g) := by
  cases hx : x with
  | error e => rfl
  | ok a => exact h a hx

/-! ## The second inlet -/

namespace Tank

theorem drawSweepFrom_inlets {a b : Inlets}
    (h : ∀ inc i (hi : i < n + 1) frac T, addInlets a inc i hi frac T = addInlets b inc i hi frac T) (inc : ℚ) :
    ∀ (i : ℕ) (hi : i < n + 1) (frac : ℚ) (T : Nodes n ℚ), drawSweepFrom a inc i hi frac T = drawSweepFrom b inc i hi frac T
  | 0, hi, frac, T => by rw [drawSweepFrom, drawSweepFrom, h]
  | i + 1, hi, frac, T => by
    rw [drawSweepFrom, drawSweepFrom, h]
    exact drawSweepFrom_inlets h inc i _ _ _

theorem drawLoop_inlets {a b : Inlets}
    (h : ∀ inc i (hi : i < n + 1) frac T, addInlets a inc i hi frac T = addInlets b inc i hi frac T) :
    ∀ (fuel : ℕ) (remaining expelled : ℚ) (t : Tank n),
      drawLoop a fuel remaining expelled t = drawLoop b fuel remaining expelled t := by
  have e : ∀ (t : Tank n) inc, drawIncrement t a inc = drawIncrement t b inc := fun t inc => by
    unfold drawIncrement
    dsimp only
    rw [drawSweepFrom_inlets h]
  intro fuel
  induction fuel with
  | zero => intro remaining expelled t; rw [drawLoop, drawLoop]
  | succ fuel ih =>
    intro remaining expelled t
    rw [drawLoop, drawLoop]
    dsimp only
    rw [e, ih]

theorem drawWater_second (t : Tank n) (v T T2 T2' : ℚ) : t.drawWater v T 0 T2 = t.drawWater v T 0 T2' := by
  have h : ∀ inc i (hi : i < n + 1) frac X, addInlets (t.sortInlets v T 0 T2) inc i hi frac X =
      addInlets (t.sortInlets v T 0 T2') inc i hi frac X := by
    intro inc i hi frac X
    unfold addInlets Tank.sortInlets
    split_ifs <;> simp
  unfold Tank.drawWater
  dsimp only
  have e : ∀ w, Tank.draw t (t.sortInlets v T 0 T2) w = Tank.draw t (t.sortInlets v T 0 T2') w := fun w => by
    unfold Tank.draw
    simp only [drawLoop_inlets h]
  rw [e]

end Tank

theorem updateNodes_second (t : Tank n) (hours seconds v T amb v2 T2 v2' T2' : ℚ)
    (h : v2' = v2 ∧ T2' = T2 ∨ v2' = 0 ∧ v2 = 0 ∨ v = 0 ∨ t.hasHeatExchanger = true ∧ v2' ≤ v ∧ v2 ≤ v) :
    t.updateNodes hours seconds v T amb v2' T2' = t.updateNodes hours seconds v T amb v2 T2 := by
  have e : t.processDraw v T v2' T2' = t.processDraw v T v2 T2 := by
    unfold Tank.processDraw
    rcases h with ⟨rfl, rfl⟩ | ⟨rfl, rfl⟩ | rfl | ⟨hx, h1, h2⟩
    · rfl
    · rw [Tank.drawWater_second t v T T2' T2]
    · rw [if_neg (lt_irrefl _), if_neg (lt_irrefl _)]
    · rw [if_neg (not_lt.mpr h1), if_neg (not_lt.mpr h2)]
      unfold Tank.drawWater
      dsimp only
      rw [if_pos hx, if_pos hx]
  unfold Tank.updateNodes
  rw [e]

/-! ## The air at the heat sources -/

/-- All heat sources are resistance elements. -/
def Elements (cfg : SimCfg n k) : Prop := ∀ i, ∃ power, (cfg.src i).kind = .resistance power

variable {m : Libm} {fuel : ℕ} {dr : DR} {amb amb' : ℚ} {s : Sim n k}

theorem lockUnlock_air (h : Elements s.cfg) (i : Fin k) : Sim.lockUnlock dr amb s i = Sim.lockUnlock dr amb' s i := by
  obtain ⟨w, hw⟩ := h i
  unfold Sim.lockUnlock
  rw [hw]

theorem applyLocks_air (h : Elements s.cfg) (i : Fin k) : Sim.applyLocks dr amb s i = Sim.applyLocks dr amb' s i := by
  unfold Sim.applyLocks
  rw [lockUnlock_air h]

theorem backupBarred_air (h : Elements s.cfg) (i b : Fin k) :
    Sim.backupBarred dr amb s i b = Sim.backupBarred dr amb' s i b := by
  obtain ⟨w, hw⟩ := h b
  unfold Sim.backupBarred
  rw [hw]

theorem pickSource_air (h : Elements s.cfg) (i : Fin k) : Sim.pickSource dr amb s i = Sim.pickSource dr amb' s i := by
  unfold Sim.pickSource
  simp only [backupBarred_air (amb := amb) (amb' := amb') h]

theorem addHeatParent_air (h : Elements s.cfg) (i : Fin k) (minutes : ℚ) :
    s.addHeatParent m fuel i amb minutes = s.addHeatParent m fuel i amb' minutes := by
  obtain ⟨w, hw⟩ := h i
  unfold Sim.addHeatParent Sim.addHeat Sim.addHeatKind
  rw [hw]

theorem backupFree_air (h : Elements s.cfg) (b : Fin k) : Sim.backupFree dr amb s b = Sim.backupFree dr amb' s b := by
  obtain ⟨w, hw⟩ := h b
  unfold Sim.backupFree
  rw [hw]

theorem runBackup_air (h : Elements s.cfg) (b : Fin k) (minutes : ℚ) :
    Sim.runBackup m fuel dr amb s b minutes = Sim.runBackup m fuel dr amb' s b minutes := by
  unfold Sim.runBackup
  rw [backupFree_air (amb' := amb') h]
  refine bind_congr_ok fun r hr => ?_
  split_ifs
  · refine bind_congr_ok fun s1 h1 => ?_
    rw [addHeatParent_air (amb' := amb')]
    rw [((CtrlEq.backupFree hr).trans (CtrlEq.engage h1)).cfg]
    exact h
  · rfl

theorem afterEarly_air (h : Elements s.cfg) (i : Fin k) (minutes : ℚ) :
    Sim.afterEarly m fuel dr amb s i minutes = Sim.afterEarly m fuel dr amb' s i minutes := by
  unfold Sim.afterEarly
  dsimp only
  refine bind_congr_ok fun f hf => ?_
  cases f with
  | some f => rfl
  | none =>
    refine bind_congr_ok fun mx hm => ?_
    have e : ∀ b, Sim.runBackup m fuel dr amb (s.disengage i) b minutes = Sim.runBackup m fuel dr amb' (s.disengage i) b minutes :=
      fun b => runBackup_air (by rw [(CtrlEq.disengage s i).cfg]; exact h) b minutes
    simp only [e]

theorem runSource_air (h : Elements s.cfg) (i j : Fin k) (minutes : ℚ) :
    Sim.runSource m fuel dr amb s i j minutes = Sim.runSource m fuel dr amb' s i j minutes := by
  unfold Sim.runSource
  rw [addHeatParent_air (amb' := amb') h]
  refine bind_congr_ok fun s1 h1 => ?_
  rw [afterEarly_air (amb' := amb')]
  rw [addHeatParent_cfg h1]
  exact h

theorem heatBody_air (h : Elements s.cfg) (i : Fin k) (minutes : ℚ) :
    Sim.heatBody m fuel dr amb s i minutes = Sim.heatBody m fuel dr amb' s i minutes := by
  unfold Sim.heatBody
  rw [applyLocks_air (amb' := amb') h]
  refine bind_congr_ok fun s1 h1 => ?_
  have e1 : Elements s1.cfg := by rw [(CtrlEq.applyLocks h1).cfg]; exact h
  rw [pickSource_air (amb' := amb') e1]
  split_ifs
  · refine bind_congr_ok fun r h2 => ?_
    have e2 : Elements r.1.cfg := by rw [(CtrlEq.pickSource h2).cfg]; exact e1
    cases r.2 with
    | none => rfl
    | some j => exact runSource_air e2 i j minutes
  · rfl

theorem heatBody_keeps {cfg : SimCfg n k} {i : Fin k} {minutes : ℚ} {r : Sim n k × ℚ} (hc : s.cfg = cfg)
    (h : Sim.heatBody m fuel dr amb s i minutes = .ok r) : r.1.cfg = cfg := by
  have H : HeatInduction m fuel dr amb cfg (fun _ => True) (fun s => s.cfg = cfg) (fun _ => True) :=
    ⟨fun _ h => h, fun _ _ c h => by rw [c.cfg]; exact h,
      fun _ _ _ _ _ h _ _ e => ⟨by rw [addHeatParent_cfg e]; exact h, fun _ => trivial⟩, fun _ _ _ _ _ _ => trivial⟩
  exact (H.heatBody (by simp [SimCfg.Covers]) hc trivial h).1

theorem heatSrcLoop_air : ∀ (is : List (Fin k)) {s : Sim n k} (_ : Elements s.cfg) (minutes : ℚ),
    Sim.heatSrcLoop m fuel dr amb is s minutes = Sim.heatSrcLoop m fuel dr amb' is s minutes
  | [], _, _, _ => rfl
  | i :: is, s, h, minutes => by
    rw [Sim.heatSrcLoop, Sim.heatSrcLoop, heatBody_air (amb' := amb') h]
    refine bind_congr_ok fun r h1 => ?_
    exact heatSrcLoop_air is (by rw [heatBody_keeps rfl h1]; exact h) r.2

theorem control_air (h : Elements s.cfg) : Sim.control m fuel dr amb s = Sim.control m fuel dr amb' s := by
  unfold Sim.control
  congr 1
  unfold Sim.normalControl
  split_ifs
  · rfl
  · refine bind_congr_ok fun a h1 => bind_congr_ok fun b h2 => heatSrcLoop_air _ ?_ _
    rw [((CtrlEq.topOff h1).trans (CtrlEq.chooseLoop h2)).cfg]
    exact h

/-! ## C107 -/

/-- **C107.** Inputs of a step that play no part change nothing: steps with inputs that differ only in those have the same
result, in every part of the state and every output, or fail in the same way. -/
theorem C107_step (m : Libm) (fuel : ℕ) (s : Sim n k) (u u' : Sim.StepInput) (h : SameInput s u u') :
    Sim.runOneStep m fuel s u' = Sim.runOneStep m fuel s u := by
  unfold Sim.runOneStep
  rw [h.draw, h.tankAmbient, h.dr, h.extraHeat]
  by_cases hd : s.cfg.doTempDepression = true ∧ s.cfg.minutesPerStep ≠ 1
  · rw [if_pos hd, if_pos hd]
  rw [if_neg hd, if_neg hd]
  dsimp only
  have hx : (s.resetOutputs.initLocation u.tankAmbient).tank.hasHeatExchanger = s.tank.hasHeatExchanger := by
    unfold Sim.initLocation
    split_ifs <;> rfl
  have h2 := h.second
  rw [← hx] at h2
  rw [updateNodes_second _ _ _ _ _ _ u.inletVol2_L u.inletT2 u'.inletVol2_L u'.inletT2 h2]
  refine bind_congr_ok fun t _ => bind_congr_ok fun p _ => ?_
  have hc : (s.resetOutputs.initLocation u.tankAmbient).cfg = s.cfg := by
    unfold Sim.initLocation
    split_ifs <;> rfl
  congr 1
  rcases h.sourceAmbient with h | h | h
  · rw [h]
  · rw [if_pos h, if_pos h]
  · exact control_air (s := { s.resetOutputs.initLocation u.tankAmbient with toPlant := p })
      (show Elements (s.resetOutputs.initLocation u.tankAmbient).cfg by rw [hc]; exact h)

/-- Two inputs of a water heater with two elements that differ in the air at the heat sources and the temperature of the
second inlet: the hypothesis is met, water is drawn and an element heats. -/
example : SameInput turnSim ⟨8, 20, 15, ⟨false, false, false, false⟩, 0, 10, []⟩ ⟨8, 20, -40, ⟨false, false, false, false⟩, 0, 90, []⟩ ∧
    ∃ s', Sim.runOneStep sampleLibm 5 turnSim ⟨8, 20, 15, ⟨false, false, false, false⟩, 0, 10, []⟩ = .ok s' ∧
      0 < (s'.st 0).energyOutput_kWh ∧ 0 < s'.tank.outletT := by
  refine ⟨⟨rfl, rfl, .inr (.inr fun i => ?_), rfl, .inr (.inl ⟨rfl, rfl⟩), rfl⟩, by decide +kernel⟩
  fin_cases i
  · exact ⟨_, rfl⟩
  · exact ⟨_, rfl⟩

/-- A water heater with a heat pump that models the temperature of the room: the heat pump heats, and the air at the heat
sources that is passed to the step plays no part. -/
example : SameInput { sampleSim with cfg := { sampleSim.cfg with doTempDepression := true } } sampleInput
      { sampleInput with sourceAmbient := -40 } ∧
    ∃ s', Sim.runOneStep sampleLibm 5 { sampleSim with cfg := { sampleSim.cfg with doTempDepression := true } } sampleInput = .ok s' ∧
      0 < (s'.st 0).energyOutput_kWh :=
  ⟨⟨rfl, rfl, .inr (.inl rfl), rfl, .inl ⟨rfl, rfl⟩, rfl⟩, by decide +kernel⟩

/-- Where the claim does not apply the inputs do matter: without that model the air at the heat sources decides whether the
heat pump runs, and the temperature of the second inlet, if water enters there, what the tank holds. -/
example : (∃ s', Sim.runOneStep sampleLibm 5 sampleSim sampleInput = .ok s' ∧ 0 < (s'.st 0).energyOutput_kWh) ∧
    (∃ s', Sim.runOneStep sampleLibm 5 sampleSim { sampleInput with sourceAmbient := -200 } = .ok s' ∧
      (s'.st 0).energyOutput_kWh = 0) ∧
    ∃ s' s'', Sim.runOneStep sampleLibm 5 sampleSim { sampleInput with extraHeat_W := [] } = .ok s' ∧
      Sim.runOneStep sampleLibm 5 sampleSim { sampleInput with extraHeat_W := [], inletT2 := 40 } = .ok s'' ∧
      s'.tank.nodeTs 0 < s''.tank.nodeTs 0 := by
  refine ⟨by decide +kernel, by decide +kernel, ?_⟩
  have key : (do
      let a ← Sim.runOneStep sampleLibm 5 sampleSim { sampleInput with extraHeat_W := [] }
      let b ← Sim.runOneStep sampleLibm 5 sampleSim { sampleInput with extraHeat_W := [], inletT2 := 40 }
      return decide (a.tank.nodeTs 0 < b.tank.nodeTs 0)) = (.ok true : Res Bool) := by decide +kernel
  rw [bind_ok_iff] at key
  obtain ⟨a, ha, key⟩ := key
  rw [bind_ok_iff] at key
  obtain ⟨b, hb, key⟩ := key
  exact ⟨a, b, ha, hb, of_decide_eq_true (Except.ok.inj key)⟩

/-- **C107.** Runs of any length do not depend on the air at the heat sources, if the water heater ignores it. -/
theorem C107_run (m : Libm) (fuel : ℕ) (s : Sim n k) (h : IgnoresSourceAir s) (us us' : List Sim.RunInput)
    (hu : List.Forall₂ (fun u u' => ∃ x, u' = { u with sourceAmbient := x }) us us') :
    Sim.runNSteps m fuel s us' = Sim.runNSteps m fuel s us := by
  have key : ∀ (s : Sim n k) (a : Sim.RunSums k), IgnoresSourceAir s →
      Sim.runLoop m fuel us' s a = Sim.runLoop m fuel us s a := by
    induction hu with
    | nil => intros; rfl
    | @cons u u' us us' hx _ ih =>
      obtain ⟨x, rfl⟩ := hx
      intro s a h
      rw [Sim.runLoop, Sim.runLoop]
      have e : Sim.runOneStepAt m fuel s { u with sourceAmbient := x } = Sim.runOneStepAt m fuel s u :=
        C107_step m fuel _ _ _ ⟨rfl, rfl, .inr h, rfl, .inl ⟨rfl, rfl⟩, rfl⟩
      rw [e]
      refine bind_congr_ok fun s1 h1 => ih s1 _ ?_
      have hc : s1.cfg = s.cfg := (runOneStep_settings rfl h1).1
      unfold IgnoresSourceAir
      rw [hc]
      exact h
  unfold Sim.runNSteps
  rw [key _ _ h]

/-- The hypotheses are met by a run in which an element heats. -/
example : IgnoresSourceAir turnSim ∧
    List.Forall₂ (fun u u' : Sim.RunInput => ∃ x, u' = { u with sourceAmbient := x }) sampleRun
      (sampleRun.map fun u => { u with sourceAmbient := -40 }) ∧
    ∃ s', Sim.runNSteps sampleLibm 5 turnSim sampleRun = .ok s' ∧ 0 < (s'.st 0).energyOutput_kWh := by
  refine ⟨.inr fun i => ?_, .cons ⟨_, rfl⟩ (.cons ⟨_, rfl⟩ .nil), by decide +kernel⟩
  fin_cases i
  · exact ⟨_, rfl⟩
  · exact ⟨_, rfl⟩

end HPWH
