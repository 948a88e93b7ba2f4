import Verif.Lemmas.ScaleSource

/-! # Lemmas: the control of a heater does not depend on its size -/

namespace HPWH

open _root_.HPWH.Units

variable {n k : ℕ}

namespace Sim

section Frame

variable (a : ℚ) (s : Sim n k)

theorem scale_plant : (s.scale a).toPlant = s.toPlant.scale a := rfl
theorem scale_st (i : Fin k) : (s.scale a).st i = (s.st i).scale a := rfl
theorem scale_src (i : Fin k) : (s.scale a).cfg.src i = (s.cfg.src i).scale a := rfl
theorem scale_isOn (i : Fin k) : ((s.scale a).st i).isOn = (s.st i).isOn := rfl
theorem scale_locked (i : Fin k) : ((s.scale a).st i).lockedOut = (s.st i).lockedOut := rfl
theorem scale_runtime (i : Fin k) : ((s.scale a).st i).runtime_min = (s.st i).runtime_min := rfl
theorem scale_heating : (s.scale a).isHeating = s.isHeating := rfl
theorem scale_backup (i : Fin k) : ((s.scale a).cfg.src i).backup = (s.cfg.src i).backup := rfl

theorem scale_setSt (i : Fin k) (x : SourceState) : (s.scale a).setSt i (x.scale a) = (s.setSt i x).scale a := by
  have e : Function.update (s.scale a).st i (x.scale a) = fun j => (Function.update s.st i x j).scale a := by
    funext j
    by_cases h : j = i
    · subst h; simp only [Function.update_self]
    · simp only [Function.update_of_ne h]; rfl
  simp only [setSt, e]
  rfl

theorem scale_disengage (i : Fin k) : (s.scale a).disengage i = (s.disengage i).scale a :=
  scale_setSt a s i { s.st i with isOn := false }

theorem scale_turnAllOff : (s.scale a).turnAllOff = s.turnAllOff.scale a := rfl

theorem scale_allOff : (s.scale a).allOff = s.allOff := rfl

theorem shouldDRLockOut_scale (kind : SourceKind) (dr : DR) :
    shouldDRLockOut (kind.scale a) dr = shouldDRLockOut kind dr := by cases kind <;> rfl

theorem scale_drLock (i : Fin k) (dr : DR) :
    shouldDRLockOut ((s.scale a).cfg.src i).kind dr = shouldDRLockOut (s.cfg.src i).kind dr :=
  shouldDRLockOut_scale a _ dr

theorem scale_engageAux (dr : DR) (fuel : ℕ) (i : Fin k) :
    engageAux dr fuel (s.scale a) i = Except.map (scale a) (engageAux dr fuel s i) := by
  induction fuel generalizing s i with
  | zero => rfl
  | succ fuel ih =>
    have e : ({ (s.scale a).setSt i { (s.scale a).st i with isOn := true } with isHeating := true } : Sim n k)
        = ({ s.setSt i { s.st i with isOn := true } with isHeating := true } : Sim n k).scale a := by
      have := scale_setSt a s i { s.st i with isOn := true }
      exact congrArg (fun x : Sim n k => ({ x with isHeating := true } : Sim n k)) this
    rw [engageAux, engageAux]
    have e2 : ((s.scale a).cfg.src i).companion = (s.cfg.src i).companion := rfl
    rw [e, e2]
    generalize ({ s.setSt i { s.st i with isOn := true } with isHeating := true } : Sim n k) = s1
    cases (s.cfg.src i).companion with
    | none => rfl
    | some j =>
      simp only [scale_plant, scale_src, SourceCfg.scale_shutsOff, ih, scale_isOn]
      rw [res_map_bind]
      refine res_bind_congr fun off => ?_
      have e3 : shouldDRLockOut (SourceCfg.scale a (s.cfg.src j)).kind dr = shouldDRLockOut (s.cfg.src j).kind dr :=
        shouldDRLockOut_scale a _ dr
      rw [e3]
      split_ifs <;> rfl

theorem scale_engage (dr : DR) (i : Fin k) : engage dr (s.scale a) i = Except.map (scale a) (engage dr s i) :=
  scale_engageAux a s dr _ i

theorem scale_engageIf (dr : DR) (o : Option (Fin k)) :
    engageIf dr (s.scale a) o = Except.map (scale a) (engageIf dr s o) := by
  cases o with
  | none => rfl
  | some j => exact scale_engage a s dr j

theorem scale_topOff (dr : DR) : topOff dr (s.scale a) = Except.map (scale a) (topOff dr s) := by
  unfold topOff
  have e : (s.scale a).timerTOT = s.timerTOT := rfl
  have e2 : (s.scale a).cfg.compressorIndex = s.cfg.compressorIndex := rfl
  have e3 : (s.scale a).cfg.lowestElementIndex = s.cfg.lowestElementIndex := rfl
  simp only [e, e2, e3, scale_engageIf, res_bind_map]
  split_ifs
  · rw [res_map_bind]
  · rfl

theorem scale_handOver (dr : DR) (i : Fin k) :
    handOver dr (s.scale a) i = Except.map (scale a) (handOver dr s i) := by
  unfold handOver
  have e : (s.scale a).engagedShutsOff i = s.engagedShutsOff i := by
    unfold engagedShutsOff
    rw [scale_isOn, scale_src, scale_plant, SourceCfg.scale_shutsOff]
  rw [e, res_map_bind]
  refine res_bind_congr fun off => ?_
  rw [scale_backup]
  simp only [scale_src, scale_plant, SourceCfg.scale_shutsOff, scale_disengage, scale_engage]
  cases off with
  | false => rfl
  | true =>
    cases (s.cfg.src i).backup with
    | none => rfl
    | some b =>
      simp only [if_true]
      rw [res_map_bind]
      refine res_bind_congr fun boff => ?_
      cases boff <;> rfl

/-- A heater with another result, enlarged. -/
def scaleFst (a : ℚ) {β : Type} (r : Sim n k × β) : Sim n k × β := (r.1.scale a, r.2)

theorem scale_chooseBody (dr : DR) (i : Fin k) :
    chooseBody dr (s.scale a) i = Except.map (scaleFst a) (chooseBody dr s i) := by
  unfold chooseBody
  have e : ((s.scale a).cfg.src i).isVIP = (s.cfg.src i).isVIP := rfl
  have e2 : (s.scale a).cfg.compressorIndex = s.cfg.compressorIndex := rfl
  simp only [scale_heating, scale_handOver, scale_drLock, e, e2]
  simp only [scale_src, scale_plant, SourceCfg.scale_shouldHeat, res_bind_map, scale_engage, scale_turnAllOff]
  cases s.isHeating with
  | true =>
    simp only [if_true]
    rw [res_map_bind]
    refine res_bind_congr fun s1 => ?_
    cases (s.cfg.src i).isVIP with
    | false => rfl
    | true =>
      simp only [if_true]
      rw [res_map_bind]
      refine res_bind_congr fun want => ?_
      cases want with
      | false => rfl
      | true =>
        simp only [if_true]
        cases shouldDRLockOut (s.cfg.src i).kind dr with
        | false => simp only [Bool.false_eq_true, if_false, res_map_bind]; rfl
        | true =>
          cases s.cfg.compressorIndex with
          | none => rfl
          | some j => simp only [if_true, res_map_bind]; rfl
  | false =>
    simp only [Bool.false_eq_true, if_false]
    rw [res_map_bind]
    refine res_bind_congr fun want => ?_
    cases want with
    | false => rfl
    | true => simp only [if_true, res_map_bind]; rfl

theorem scale_chooseLoop (dr : DR) (l : List (Fin k)) :
    chooseLoop dr l (s.scale a) = Except.map (scale a) (chooseLoop dr l s) := by
  induction l generalizing s with
  | nil => rfl
  | cons i is ih =>
    rw [chooseLoop, chooseLoop, scale_chooseBody, res_map_bind, res_bind_map]
    refine res_bind_congr fun r => ?_
    simp only [scaleFst, ih]
    split_ifs <;> rfl

theorem scale_lockUnlock (dr : DR) (amb : ℚ) (i : Fin k) :
    lockUnlock dr amb (s.scale a) i = Except.map (scale a) (lockUnlock dr amb s i) := by
  unfold lockUnlock
  rw [scale_drLock]
  have e1 := scale_setSt a s i { s.st i with lockedOut := true }
  have e2 := scale_setSt a s i { s.st i with lockedOut := false }
  have e3 : ((s.scale a).cfg.src i).kind = (s.cfg.src i).kind.scale a := rfl
  rw [e3]
  split_ifs
  · exact congrArg Except.ok e1
  · cases (s.cfg.src i).kind with
    | resistance w => exact congrArg Except.ok e2
    | condenser c =>
      simp only [SourceKind.scale]
      rw [scale_src, scale_plant, scale_st, toLockOrUnlock_scale, res_bind_map, res_map_bind]
      refine res_bind_congr fun x => congrArg Except.ok (scale_setSt a s i x)

theorem scale_applyLocks (dr : DR) (amb : ℚ) (i : Fin k) :
    applyLocks dr amb (s.scale a) i = Except.map (scale a) (applyLocks dr amb s i) := by
  unfold applyLocks
  rw [scale_lockUnlock, res_bind_map, res_map_bind]
  refine res_bind_congr fun s1 => ?_
  rw [scale_locked, scale_backup, scale_disengage]
  split_ifs <;> rfl

theorem scale_backupBarred (dr : DR) (amb : ℚ) (i b : Fin k) :
    backupBarred dr amb (s.scale a) i b = Except.map (scaleFst a) (backupBarred dr amb s i b) := by
  unfold backupBarred
  dsimp only
  rw [scale_drLock]
  have eb : ((s.scale a).cfg.src b).kind = (s.cfg.src b).kind.scale a := rfl
  have ei : ((s.scale a).cfg.src i).kind = (s.cfg.src i).kind.scale a := rfl
  rw [eb, ei]
  cases (s.cfg.src b).kind with
  | condenser c =>
    simp only [SourceKind.scale]
    rw [scale_src, scale_plant, scale_st, toLockOrUnlock_scale, res_bind_map, res_map_bind]
    refine res_bind_congr fun x => congrArg Except.ok ?_
    simp only [scaleFst, ← scale_setSt]
    rfl
  | resistance w => cases (s.cfg.src i).kind <;> rfl

theorem scale_isResistance (i : Fin k) : (s.scale a).isResistance i = s.isResistance i := by
  unfold isResistance
  have ei : ((s.scale a).cfg.src i).kind = (s.cfg.src i).kind.scale a := rfl
  rw [ei]
  cases (s.cfg.src i).kind <;> rfl

theorem scale_vipOn : (s.scale a).vipOn = s.vipOn := rfl

theorem scale_pickSource (dr : DR) (amb : ℚ) (i : Fin k) :
    pickSource dr amb (s.scale a) i = Except.map (scaleFst a) (pickSource dr amb s i) := by
  unfold pickSource
  rw [scale_locked, scale_backup]
  simp only [scale_backupBarred, scale_isResistance]
  split_ifs
  · cases (s.cfg.src i).backup with
    | none => rfl
    | some b =>
      simp only [res_bind_map, res_map_bind]
      refine res_bind_congr fun r => ?_
      obtain ⟨r1, r2⟩ := r
      cases r2 with
      | true => rfl
      | false =>
        have e : ∀ x : Bool, (if x = true then (pure (r1.scale a, none) : Res (Sim n k × Option (Fin k)))
            else pure (r1.scale a, some b))
            = Except.map (scaleFst a) (if x = true then pure (r1, none) else pure (r1, some b)) := by
          intro x; cases x <;> rfl
        exact e (r1.vipOn && s.isResistance b)
  · rfl

theorem scale_setSetpoint (x : ℚ) : (s.scale a).setSetpoint x = Except.map (scale a) (s.setSetpoint x) := by
  have e : (s.scale a).newSetpointPossible x = s.newSetpointPossible x := by
    unfold newSetpointPossible
    have e1 : (s.scale a).cfg.setpointFixed = s.cfg.setpointFixed := rfl
    have e2 : (s.scale a).cfg.lowestElementIndex = s.cfg.lowestElementIndex := rfl
    have e3 : (s.scale a).cfg.compressorIndex = s.cfg.compressorIndex := rfl
    have e4 : ∀ j, ((s.scale a).cfg.src j).kind = (s.cfg.src j).kind.scale a := fun _ => rfl
    have e5 : (s.scale a).setpoint = s.setpoint := rfl
    have e6 : (s.scale a).cfg.isStorageTank = s.cfg.isStorageTank := rfl
    rw [e1, e2, e3, e5, e6]
    split_ifs
    · rfl
    · cases s.cfg.lowestElementIndex with
      | some _ => rfl
      | none =>
        cases s.cfg.compressorIndex with
        | none => rfl
        | some j =>
          simp only [e4]
          cases (s.cfg.src j).kind <;> rfl
  unfold setSetpoint
  rw [e]
  split_ifs <;> rfl

end Frame

variable {a : ℚ} (ha : 0 < a) (m : Libm) (fuel : ℕ)
include ha

theorem scale_addHeat (s : Sim n k) (i : Fin k) (amb minutes : ℚ) :
    (s.scale a).addHeat m fuel i amb minutes = Except.map (scale a) (s.addHeat m fuel i amb minutes) := by
  unfold addHeat
  rw [scale_src, scale_plant, scale_st, addHeatKind_scale m ha, res_bind_map, res_map_bind]
  refine res_bind_congr fun r => congrArg Except.ok ?_
  have := scale_setSt a s i r.2
  exact congrArg (fun x : Sim n k => ({ x with toPlant := r.1.scale a } : Sim n k)) this

theorem scale_addHeatParent (s : Sim n k) (i : Fin k) (amb minutes : ℚ) :
    (s.scale a).addHeatParent m fuel i amb minutes = Except.map (scale a) (s.addHeatParent m fuel i amb minutes) := by
  unfold addHeatParent
  have e1 : ((s.scale a).cfg.src i).kind = (s.cfg.src i).kind.scale a := rfl
  have e2 : (s.scale a).setpoint = s.setpoint := rfl
  rw [e1, e2]
  simp only [scale_addHeat ha, scale_setSetpoint, res_bind_map]
  cases (s.cfg.src i).kind with
  | resistance w => rfl
  | condenser c =>
    simp only [SourceKind.scale]
    have e3 : (c.scale a).maxOutAirT = c.maxOutAirT := rfl
    have e4 : (c.scale a).maxOutT = c.maxOutT := rfl
    rw [e3, e4]
    by_cases h1 : amb ≤ c.maxOutAirT ∧ s.setpoint ≥ c.maxOutT
    · simp only [h1, and_self, if_true]
      simp only [res_map_bind]
      refine res_bind_congr fun s1 => ?_
      refine res_bind_congr fun s2 => ?_
      split_ifs <;> rfl
    · simp only [h1, if_false]

theorem scale_runBackup (dr : DR) (amb : ℚ) (s : Sim n k) (b : Fin k) (minutes : ℚ) :
    runBackup m fuel dr amb (s.scale a) b minutes = Except.map (scale a) (runBackup m fuel dr amb s b minutes) := by
  have free : backupFree dr amb (s.scale a) b = Except.map (scaleFst a) (backupFree dr amb s b) := by
    unfold backupFree
    dsimp only
    rw [scale_drLock]
    have eb : ((s.scale a).cfg.src b).kind = (s.cfg.src b).kind.scale a := rfl
    rw [eb]
    cases (s.cfg.src b).kind with
    | condenser c =>
      simp only [SourceKind.scale]
      rw [scale_src, scale_plant, scale_st, toLockOrUnlock_scale, res_bind_map, res_map_bind]
      refine res_bind_congr fun x => congrArg Except.ok ?_
      simp only [scaleFst, ← scale_setSt]
      rfl
    | resistance w => rfl
  unfold runBackup
  rw [free, res_bind_map, res_map_bind]
  refine res_bind_congr fun r => ?_
  simp only [scaleFst, scale_engage, res_bind_map, scale_runtime, scale_addHeatParent ha]
  split_ifs
  · rw [res_map_bind]
    refine res_bind_congr fun s1 => ?_
    split_ifs <;> rfl
  · rfl

theorem scale_afterEarly (dr : DR) (amb : ℚ) (s : Sim n k) (i : Fin k) (minutes : ℚ) :
    afterEarly m fuel dr amb (s.scale a) i minutes = Except.map (scale a) (afterEarly m fuel dr amb s i minutes) := by
  have follows : ∀ s : Sim n k, (s.scale a).follower i = s.follower i := fun s => by
    unfold follower
    have e : ((s.scale a).cfg.src i).followedBy = (s.cfg.src i).followedBy := rfl
    rw [e]
    cases (s.cfg.src i).followedBy with
    | none => rfl
    | some f => simp only [scale_src, scale_plant, SourceCfg.scale_shutsOff]
  unfold afterEarly
  simp only [scale_disengage, follows, scale_engage, scale_backup, scale_runBackup ha]
  simp only [scale_src, scale_plant, SourceCfg.scale_maxedOut, res_map_bind]
  refine res_bind_congr fun follow => ?_
  cases follow with
  | some f => rfl
  | none =>
    simp only [res_map_bind]
    refine res_bind_congr fun maxed => ?_
    cases maxed <;> cases (s.cfg.src i).backup <;> rfl

theorem scale_runSource (dr : DR) (amb : ℚ) (s : Sim n k) (i j : Fin k) (minutes : ℚ) :
    runSource m fuel dr amb (s.scale a) i j minutes
      = Except.map (scaleFst a) (runSource m fuel dr amb s i j minutes) := by
  unfold runSource
  rw [scale_addHeatParent ha, res_map_bind, res_bind_map]
  refine res_bind_congr fun s1 => ?_
  simp only [scale_runtime, scale_afterEarly ha, res_bind_map]
  split_ifs
  · rw [res_map_bind]; rfl
  · rfl

theorem scale_heatBody (dr : DR) (amb : ℚ) (s : Sim n k) (i : Fin k) (minutes : ℚ) :
    heatBody m fuel dr amb (s.scale a) i minutes = Except.map (scaleFst a) (heatBody m fuel dr amb s i minutes) := by
  unfold heatBody
  rw [scale_applyLocks, res_map_bind, res_bind_map]
  refine res_bind_congr fun s1 => ?_
  simp only [scale_isOn, scale_pickSource, res_bind_map]
  split_ifs
  · rw [res_map_bind]
    refine res_bind_congr fun r => ?_
    obtain ⟨r1, r2⟩ := r
    cases r2 with
    | none => rfl
    | some j => exact scale_runSource ha m fuel dr amb r1 i j minutes
  · rfl

theorem scale_heatSrcLoop (dr : DR) (amb : ℚ) (l : List (Fin k)) (s : Sim n k) (minutes : ℚ) :
    heatSrcLoop m fuel dr amb l (s.scale a) minutes = Except.map (scale a) (heatSrcLoop m fuel dr amb l s minutes) := by
  induction l generalizing s minutes with
  | nil => rfl
  | cons i is ih =>
    rw [heatSrcLoop, heatSrcLoop, scale_heatBody ha, res_map_bind, res_bind_map]
    exact res_bind_congr fun r => ih r.1 r.2

theorem scale_control (dr : DR) (amb : ℚ) (s : Sim n k) :
    Sim.control m fuel dr amb (s.scale a) = Except.map (scale a) (Sim.control m fuel dr amb s) := by
  have normal : normalControl m fuel dr amb (s.scale a) = Except.map (scale a) (normalControl m fuel dr amb s) := by
    unfold normalControl
    have e : (s.scale a).cfg.minutesPerStep = s.cfg.minutesPerStep := rfl
    simp only [scale_topOff, res_bind_map, scale_chooseLoop, scale_heatSrcLoop ha, e, scale_turnAllOff]
    split_ifs
    · rfl
    · simp only [res_map_bind]
  unfold Sim.control
  rw [normal, res_map_bind, res_bind_map]
  refine res_bind_congr fun s1 => congrArg Except.ok ?_
  rw [scale_allOff]
  split_ifs <;> rfl

end Sim

end HPWH
