import Verif.Lemmas.OneStep

/-! The standby power of a condenser has no effect on anything but the settlement of a step. -/

namespace HPWH

variable {n k : ℕ}

namespace Standby

/-! Everything that heating does commutes with a change of standby powers. -/

theorem map_bind {α β γ : Type} (x : Res α) (f : α → Res β) (g : β → γ) :
    (x >>= f).map g = x >>= fun a => (f a).map g := by
  cases x <;> rfl

theorem bind_map {α β γ : Type} (x : Res α) (f : α → β) (g : β → Res γ) :
    (x.map f) >>= g = x >>= fun a => g (f a) := by
  cases x <;> rfl

theorem map_ite {α β : Type} (c : Prop) [Decidable c] (a b : Res α) (g : α → β) :
    (if c then a else b).map g = if c then a.map g else b.map g := by
  split_ifs <;> rfl

theorem map_pure {α β : Type} (a : α) (g : α → β) : (pure a : Res α).map g = pure (g a) := rfl
theorem map_ok {α β : Type} (a : α) (g : α → β) : (.ok a : Res α).map g = .ok (g a) := rfl
theorem map_error {α β : Type} (e : Err) (g : α → β) : (.error e : Res α).map g = .error e := rfl

variable (x : Fin k → ℚ)

theorem src (s : Sim n k) (i : Fin k) :
    ((s.withStandby x).cfg.src i) = (s.cfg.src i).withStandby (x i) := rfl
theorem plant (s : Sim n k) : (s.withStandby x).toPlant = s.toPlant := rfl
theorem st (s : Sim n k) : (s.withStandby x).st = s.st := rfl

theorem setSt (s : Sim n k) (i : Fin k) (a : SourceState) :
    (s.withStandby x).setSt i a = (s.setSt i a).withStandby x := rfl

theorem dr (s : SourceCfg n k) (y : ℚ) (d : DR) :
    shouldDRLockOut (s.withStandby y).kind d = shouldDRLockOut s.kind d := by
  unfold SourceCfg.withStandby shouldDRLockOut
  cases s.kind <;> rfl

theorem shutsOff (s : SourceCfg n k) (y : ℚ) : (s.withStandby y).shutsOff = s.shutsOff := rfl

theorem shouldHeatLoop (s : SourceCfg n k) (y : ℚ) (p : Plant n) : ∀ l,
    (s.withStandby y).shouldHeatLoop p l = s.shouldHeatLoop p l := by
  intro l
  induction l with
  | nil => rfl
  | cons a l ih =>
    rw [SourceCfg.shouldHeatLoop, SourceCfg.shouldHeatLoop]
    simp only [ih]
    rfl

theorem shouldHeat (s : SourceCfg n k) (y : ℚ) : (s.withStandby y).shouldHeat = s.shouldHeat := by
  funext p
  unfold SourceCfg.shouldHeat
  rw [shouldHeatLoop]
  rfl

theorem engageAux (d : DR) : ∀ (fuel : ℕ) (s : Sim n k) (i : Fin k),
    Sim.engageAux d fuel (s.withStandby x) i =
      (Sim.engageAux d fuel s i).map (·.withStandby x) := by
  intro fuel
  induction fuel with
  | zero => intro s i; rfl
  | succ fuel ih =>
    intro s i
    rw [Sim.engageAux, Sim.engageAux]
    have e : ((s.withStandby x).cfg.src i).companion = (s.cfg.src i).companion := rfl
    rw [e]
    cases (s.cfg.src i).companion with
    | none => rfl
    | some j =>
      simp only [map_bind, map_ite, map_pure]
      simp only [← ih]
      simp only [src, dr]
      rfl

theorem engage (d : DR) (s : Sim n k) (i : Fin k) :
    Sim.engage d (s.withStandby x) i = (Sim.engage d s i).map (·.withStandby x) :=
  engageAux x d _ s i

theorem disengage (s : Sim n k) (i : Fin k) :
    (s.withStandby x).disengage i = (s.disengage i).withStandby x := rfl

theorem handOver (d : DR) (s : Sim n k) (i : Fin k) :
    Sim.handOver d (s.withStandby x) i = (Sim.handOver d s i).map (·.withStandby x) := by
  unfold Sim.handOver
  rw [map_bind]
  have e : ((s.withStandby x).cfg.src i).backup = (s.cfg.src i).backup := rfl
  rw [e]
  cases (s.cfg.src i).backup with
  | none => simp only [map_ite, map_pure]; rfl
  | some b =>
    simp only [map_ite, map_pure, map_bind, ← engage]
    rfl

theorem chooseBody (d : DR) (s : Sim n k) (i : Fin k) :
    Sim.chooseBody d (s.withStandby x) i =
      (Sim.chooseBody d s i).map fun r => (r.1.withStandby x, r.2) := by
  unfold Sim.chooseBody
  have e : (s.withStandby x).cfg.compressorIndex = s.cfg.compressorIndex := rfl
  rw [e]
  cases s.cfg.compressorIndex with
  | none =>
    simp only [map_ite, map_pure, map_bind, handOver, bind_map, src, dr, shouldHeat, engage]
    simp only [plant]
    have : ∀ a : Sim n k, (a.withStandby x).turnAllOff = a.turnAllOff.withStandby x := fun _ => rfl
    simp only [this, engage, bind_map]
    rfl
  | some j =>
    simp only [map_ite, map_pure, map_bind, handOver, bind_map, src, dr, shouldHeat, engage]
    simp only [plant]
    have : ∀ a : Sim n k, (a.withStandby x).turnAllOff = a.turnAllOff.withStandby x := fun _ => rfl
    simp only [this, engage, bind_map]
    rfl

theorem chooseLoop (d : DR) : ∀ (l : List (Fin k)) (s : Sim n k),
    Sim.chooseLoop d l (s.withStandby x) = (Sim.chooseLoop d l s).map (·.withStandby x) := by
  intro l
  induction l with
  | nil => intro s; rfl
  | cons i l ih =>
    intro s
    rw [Sim.chooseLoop, Sim.chooseLoop]
    simp only [chooseBody, bind_map, map_bind, map_ite, map_pure, ih]

theorem engageIf (d : DR) (s : Sim n k) (o : Option (Fin k)) :
    Sim.engageIf d (s.withStandby x) o = (Sim.engageIf d s o).map (·.withStandby x) := by
  cases o with
  | none => rfl
  | some j => exact engage x d s j

theorem topOff (d : DR) (s : Sim n k) :
    Sim.topOff d (s.withStandby x) = (Sim.topOff d s).map (·.withStandby x) := by
  unfold Sim.topOff
  simp only [map_ite, map_bind, engageIf, bind_map]
  rfl

theorem maxedOut (s : SourceCfg n k) (y : ℚ) : (s.withStandby y).maxedOut = s.maxedOut := by
  funext p
  unfold SourceCfg.maxedOut
  cases h : s.kind <;> simp [SourceCfg.withStandby, h] <;> rfl

theorem toLockOrUnlock (s : SourceCfg n k) (y : ℚ) (c : CondCfg) (z : ℚ) (a : SourceState)
    (p : Plant n) (amb : ℚ) :
    HPWH.toLockOrUnlock (s.withStandby y) { c with standbyPower_kW := z } a p amb =
      HPWH.toLockOrUnlock s c a p amb := by
  unfold HPWH.toLockOrUnlock shouldLockOut shouldUnlock
  rw [maxedOut]
  rfl

theorem kind (s : SourceCfg n k) (y : ℚ) : (s.withStandby y).kind =
    match s.kind with
    | .resistance w => .resistance w
    | .condenser c => .condenser { c with standbyPower_kW := y } := rfl

theorem lockUnlock (d : DR) (amb : ℚ) (s : Sim n k) (i : Fin k) :
    Sim.lockUnlock d amb (s.withStandby x) i =
      (Sim.lockUnlock d amb s i).map (·.withStandby x) := by
  unfold Sim.lockUnlock
  rw [src, dr, kind, map_ite]
  congr 1
  cases (s.cfg.src i).kind with
  | resistance w => rfl
  | condenser c =>
    simp only [toLockOrUnlock, map_bind]
    rfl

theorem applyLocks (d : DR) (amb : ℚ) (s : Sim n k) (i : Fin k) :
    Sim.applyLocks d amb (s.withStandby x) i =
      (Sim.applyLocks d amb s i).map (·.withStandby x) := by
  unfold Sim.applyLocks
  simp only [lockUnlock, bind_map, map_bind, map_ite, map_pure]
  rfl

theorem isResistance (s : Sim n k) (i : Fin k) :
    (s.withStandby x).isResistance i = s.isResistance i := by
  unfold Sim.isResistance
  rw [src, kind]
  cases (s.cfg.src i).kind <;> rfl

theorem backupBarred (d : DR) (amb : ℚ) (s : Sim n k) (i b : Fin k) :
    Sim.backupBarred d amb (s.withStandby x) i b =
      (Sim.backupBarred d amb s i b).map fun r => (r.1.withStandby x, r.2) := by
  unfold Sim.backupBarred
  simp only [src, dr]
  simp only [kind]
  cases (s.cfg.src b).kind with
  | resistance w =>
    cases (s.cfg.src i).kind <;> rfl
  | condenser c =>
    simp only [toLockOrUnlock, map_bind]
    rfl

theorem pickSource (d : DR) (amb : ℚ) (s : Sim n k) (i : Fin k) :
    Sim.pickSource d amb (s.withStandby x) i =
      (Sim.pickSource d amb s i).map fun r => (r.1.withStandby x, r.2) := by
  unfold Sim.pickSource
  rw [map_ite]
  have e : ((s.withStandby x).cfg.src i).backup = (s.cfg.src i).backup := rfl
  rw [e]
  cases (s.cfg.src i).backup with
  | none => rfl
  | some b =>
    simp only [backupBarred, bind_map, map_bind, map_ite, map_pure, isResistance]
    rfl

theorem backupFree (d : DR) (amb : ℚ) (s : Sim n k) (b : Fin k) :
    Sim.backupFree d amb (s.withStandby x) b =
      (Sim.backupFree d amb s b).map fun r => (r.1.withStandby x, r.2) := by
  unfold Sim.backupFree
  simp only [src, dr]
  simp only [kind]
  cases (s.cfg.src b).kind with
  | resistance w => rfl
  | condenser c =>
    simp only [toLockOrUnlock, map_bind]
    rfl

theorem spPass (s : SourceCfg n k) (y : ℚ) (c : CondCfg) (z amb : ℚ) (a : ExtState n) :
    HPWH.spPass (s.withStandby y) { c with standbyPower_kW := z } amb a = HPWH.spPass s c amb a :=
  rfl

theorem spLoop (s : SourceCfg n k) (y : ℚ) (c : CondCfg) (z amb : ℚ) : ∀ (fuel : ℕ)
    (a : ExtState n), HPWH.spLoop (s.withStandby y) { c with standbyPower_kW := z } amb fuel a =
      HPWH.spLoop s c amb fuel a := by
  intro fuel
  induction fuel with
  | zero => intro a; rfl
  | succ fuel ih =>
    intro a
    rw [HPWH.spLoop, HPWH.spLoop]
    simp only [ih, spPass, shutsOff]

theorem mpPass (s : SourceCfg n k) (y : ℚ) (c : CondCfg) (z amb : ℚ) (a : ExtState n) :
    HPWH.mpPass (s.withStandby y) { c with standbyPower_kW := z } amb a = HPWH.mpPass s c amb a :=
  rfl

theorem mpLoop (s : SourceCfg n k) (y : ℚ) (c : CondCfg) (z amb : ℚ) : ∀ (fuel : ℕ)
    (a : ExtState n), HPWH.mpLoop (s.withStandby y) { c with standbyPower_kW := z } amb fuel a =
      HPWH.mpLoop s c amb fuel a := by
  intro fuel
  induction fuel with
  | zero => intro a; rfl
  | succ fuel ih =>
    intro a
    rw [HPWH.mpLoop, HPWH.mpLoop]
    simp only [ih, mpPass, shutsOff]

theorem addHeatKind (m : Libm) (fuel : ℕ) (s : SourceCfg n k) (y : ℚ) (p : Plant n)
    (a : SourceState) (amb minutes : ℚ) :
    Sim.addHeatKind m fuel (s.withStandby y) p a amb minutes =
      Sim.addHeatKind m fuel s p a amb minutes := by
  unfold Sim.addHeatKind
  rw [kind]
  cases s.kind with
  | resistance w => rfl
  | condenser c =>
    unfold condenserAddHeat externalAddHeat addHeatExternal
    simp only [mpLoop, spLoop]
    rfl

theorem addHeat (m : Libm) (fuel : ℕ) (s : Sim n k) (i : Fin k) (amb minutes : ℚ) :
    Sim.addHeat m fuel (s.withStandby x) i amb minutes =
      (Sim.addHeat m fuel s i amb minutes).map (·.withStandby x) := by
  unfold Sim.addHeat
  rw [src, addHeatKind, map_bind]
  rfl

theorem newSetpointPossible (s : Sim n k) (t : ℚ) :
    (s.withStandby x).newSetpointPossible t = s.newSetpointPossible t := by
  unfold Sim.newSetpointPossible
  simp only [src, kind]
  have e1 : (s.withStandby x).cfg.setpointFixed = s.cfg.setpointFixed := rfl
  have e2 : (s.withStandby x).cfg.lowestElementIndex = s.cfg.lowestElementIndex := rfl
  have e3 : (s.withStandby x).cfg.compressorIndex = s.cfg.compressorIndex := rfl
  rw [e1, e2, e3]
  congr 1
  cases s.cfg.lowestElementIndex with
  | some j => rfl
  | none =>
    cases s.cfg.compressorIndex with
    | none => rfl
    | some j =>
      simp only
      cases (s.cfg.src j).kind <;> rfl

theorem setSetpoint (s : Sim n k) (t : ℚ) :
    (s.withStandby x).setSetpoint t = (s.setSetpoint t).map (·.withStandby x) := by
  unfold Sim.setSetpoint
  rw [newSetpointPossible, map_ite]
  rfl

theorem addHeatParent (m : Libm) (fuel : ℕ) (s : Sim n k) (i : Fin k) (amb minutes : ℚ) :
    Sim.addHeatParent m fuel (s.withStandby x) i amb minutes =
      (Sim.addHeatParent m fuel s i amb minutes).map (·.withStandby x) := by
  unfold Sim.addHeatParent
  simp only [src, kind]
  cases (s.cfg.src i).kind with
  | resistance w => exact addHeat x m fuel s i amb minutes
  | condenser c =>
    simp only [map_ite, map_bind, map_pure, setSetpoint, bind_map, addHeat]
    rfl

theorem runBackup (m : Libm) (fuel : ℕ) (d : DR) (amb : ℚ) (s : Sim n k) (b : Fin k)
    (minutes : ℚ) : Sim.runBackup m fuel d amb (s.withStandby x) b minutes =
      (Sim.runBackup m fuel d amb s b minutes).map (·.withStandby x) := by
  unfold Sim.runBackup
  simp only [backupFree, map_bind, bind_map, map_ite, map_pure, engage, addHeatParent]
  rfl

theorem follower (s : Sim n k) (i : Fin k) : (s.withStandby x).follower i = s.follower i := rfl

theorem afterEarly (m : Libm) (fuel : ℕ) (d : DR) (amb : ℚ) (s : Sim n k) (i : Fin k)
    (minutes : ℚ) : Sim.afterEarly m fuel d amb (s.withStandby x) i minutes =
      (Sim.afterEarly m fuel d amb s i minutes).map (·.withStandby x) := by
  unfold Sim.afterEarly
  simp only [disengage, follower, map_bind]
  congr 1
  funext o
  cases o with
  | some f => exact engage x d _ f
  | none =>
    simp only [map_bind, src, maxedOut, plant]
    congr 1
    funext b
    have e : ((s.cfg.src i).withStandby (x i)).backup = (s.cfg.src i).backup := rfl
    rw [e]
    cases b with
    | false => rfl
    | true =>
      cases (s.cfg.src i).backup with
      | none => rfl
      | some b => exact runBackup x m fuel d amb _ b minutes

theorem runSource (m : Libm) (fuel : ℕ) (d : DR) (amb : ℚ) (s : Sim n k) (i j : Fin k)
    (minutes : ℚ) : Sim.runSource m fuel d amb (s.withStandby x) i j minutes =
      (Sim.runSource m fuel d amb s i j minutes).map fun r => (r.1.withStandby x, r.2) := by
  unfold Sim.runSource
  simp only [addHeatParent, bind_map, map_bind, map_ite, map_pure, afterEarly]
  rfl

theorem heatBody (m : Libm) (fuel : ℕ) (d : DR) (amb : ℚ) (s : Sim n k) (i : Fin k)
    (minutes : ℚ) : Sim.heatBody m fuel d amb (s.withStandby x) i minutes =
      (Sim.heatBody m fuel d amb s i minutes).map fun r => (r.1.withStandby x, r.2) := by
  unfold Sim.heatBody
  simp only [applyLocks, bind_map, map_bind, map_ite, map_pure, pickSource]
  congr 1
  funext s1
  simp only [st]
  congr 1
  congr 1
  funext r
  cases r.2 with
  | none => rfl
  | some j => exact runSource x m fuel d amb r.1 i j minutes

theorem heatSrcLoop (m : Libm) (fuel : ℕ) (d : DR) (amb : ℚ) : ∀ (l : List (Fin k)) (s : Sim n k)
    (minutes : ℚ), Sim.heatSrcLoop m fuel d amb l (s.withStandby x) minutes =
      (Sim.heatSrcLoop m fuel d amb l s minutes).map (·.withStandby x) := by
  intro l
  induction l with
  | nil => intro s minutes; rfl
  | cons i l ih =>
    intro s minutes
    rw [Sim.heatSrcLoop, Sim.heatSrcLoop]
    simp only [heatBody, bind_map, map_bind, ih]

theorem normalControl (m : Libm) (fuel : ℕ) (d : DR) (amb : ℚ) (s : Sim n k) :
    Sim.normalControl m fuel d amb (s.withStandby x) =
      (Sim.normalControl m fuel d amb s).map (·.withStandby x) := by
  unfold Sim.normalControl
  have e : (s.withStandby x).cfg.minutesPerStep = s.cfg.minutesPerStep := rfl
  rw [map_ite]
  simp only [map_bind, bind_map, topOff, chooseLoop, heatSrcLoop, e]
  rfl

theorem control (m : Libm) (fuel : ℕ) (d : DR) (amb : ℚ) (s : Sim n k) :
    Sim.control m fuel d amb (s.withStandby x) =
      (Sim.control m fuel d amb s).map (·.withStandby x) := by
  unfold Sim.control
  simp only [map_bind, bind_map, normalControl, map_pure]
  congr 1
  funext c
  have : (c.withStandby x).allOff = c.allOff := rfl
  rw [this]
  congr 1
  split_ifs <;> rfl

theorem extraStep (m : Libm) (s : Sim n k) (w : List ℚ) :
    (s.withStandby x).extraStep m w = (s.extraStep m w).map (·.withStandby x) := by
  unfold Sim.extraStep Sim.addExtraHeat
  simp only [map_ite, map_bind, map_pure, bind_assoc]
  rfl

theorem trackLocation (s : Sim n k) (goal : ℚ) :
    (s.withStandby x).trackLocation goal = (s.trackLocation goal).withStandby x := by
  unfold Sim.trackLocation
  have e : (s.withStandby x).cfg.doTempDepression = s.cfg.doTempDepression := rfl
  rw [e]
  by_cases h : s.cfg.doTempDepression = true
  · rw [if_pos h, if_pos h]; rfl
  · rw [if_neg h, if_neg h]

/-- A step up to the settlement of its outputs. -/
def unsettled (m : Libm) (fuel : ℕ) (s : Sim n k) (u : Sim.StepInput) : Res (Sim n k) :=
  if s.cfg.doTempDepression ∧ s.cfg.minutesPerStep ≠ 1 then .error .error
  else do
    let s0 := s.resetOutputs.initLocation u.tankAmbient
    let tankAmb := if s.cfg.doTempDepression then s0.locationT else u.tankAmbient
    let srcAmb := if s.cfg.doTempDepression then s0.locationT else u.sourceAmbient
    let tank ← s0.tank.updateNodes s.cfg.hoursPerStep s.cfg.secondsPerStep u.draw_L s0.inletT
      tankAmb u.inletVol2_L u.inletT2
    let p ← ({ s0.toPlant with tank := tank } : Plant n).updateSoC
    let s1 ← Sim.control m fuel u.dr srcAmb { s0 with toPlant := p }
    let s2 ← s1.extraStep m u.extraHeat_W
    return s2.trackLocation u.tankAmbient

theorem runOneStep_eq (m : Libm) (fuel : ℕ) (s : Sim n k) (u : Sim.StepInput) :
    Sim.runOneStep m fuel s u =
      (unsettled m fuel s u).map fun t => t.settleOutputs.updateTimer u.dr := by
  unfold Sim.runOneStep unsettled
  simp only [map_ite, map_bind, map_pure, map_error]

theorem initLocation (s : Sim n k) (t : ℚ) :
    (s.withStandby x).resetOutputs.initLocation t = (s.resetOutputs.initLocation t).withStandby x := by
  unfold Sim.initLocation
  have e : (s.withStandby x).resetOutputs = s.resetOutputs.withStandby x := rfl
  rw [e]
  by_cases h : s.resetOutputs.cfg.doTempDepression = true ∧
      s.resetOutputs.locationT = Sim.uninitialisedLocation
  · rw [if_pos h, if_pos (by exact h)]; rfl
  · rw [if_neg h, if_neg (by exact h)]

theorem unsettled_eq (m : Libm) (fuel : ℕ) (s : Sim n k) (u : Sim.StepInput) :
    unsettled m fuel (s.withStandby x) u = (unsettled m fuel s u).map (·.withStandby x) := by
  unfold unsettled
  have e : ∀ (a : Sim n k) (p : Plant n), ({ a.withStandby x with toPlant := p } : Sim n k) =
      ({ a with toPlant := p } : Sim n k).withStandby x := fun _ _ => rfl
  simp only [map_ite, map_bind, map_error, map_pure, initLocation, e, control, bind_map, extraStep,
    trackLocation]
  rfl

end Standby

end HPWH
