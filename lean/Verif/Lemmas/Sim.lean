import Verif.Lemmas.HeatSource
import Verif.Model.Sim

/-! Helper lemmas about the simulation step. -/

namespace HPWH

variable {n k : ℕ}

/-- Two simulator states that differ only in which heat sources are engaged or locked out and in
whether the simulator is heating. -/
structure CtrlEq (s s' : Sim n k) : Prop where
  rest : s' = { s with st := s'.st, isHeating := s'.isHeating }
  st : ∀ i, s'.st i = { s.st i with isOn := (s'.st i).isOn, lockedOut := (s'.st i).lockedOut }

/-! ## Control decisions always finish -/

theorem avgInner_ne_diverge (maxH next nodeT : ℚ) : ∀ (d : WDist) (normH sum tot : ℚ),
    WDist.avgInner maxH next nodeT normH d sum tot ≠ .error .diverge := by
  intro d
  induction d with
  | nil => intro normH sum tot; simp [WDist.avgInner]
  | cons p ps ih =>
    intro normH sum tot
    rw [WDist.avgInner]
    simp only
    split_ifs
    · exact ih _ _ _
    · exact ih _ _ _
    · simp
    · simp

theorem avgOuter_ne_diverge {N : ℕ} (maxH : ℚ) (T : Fin N → ℚ) : ∀ (room i : ℕ)
    (h : i + room = N) (d : WDist) (sum tot : ℚ),
    WDist.avgOuter maxH T i room h d sum tot ≠ .error .diverge := by
  intro room
  induction room with
  | zero => intro i h d sum tot; simp [WDist.avgOuter]
  | succ room ih =>
    intro i h d sum tot
    rw [WDist.avgOuter]
    split
    · exact ih _ _ _ _ _
    · rename_i e he
      intro hc
      rw [Except.error.inj hc] at he
      exact avgInner_ne_diverge _ _ _ _ _ _ _ he

theorem averageT_ne_diverge {N : ℕ} (d : WDist) (T : Fin N → ℚ) :
    d.averageT T ≠ .error .diverge := by
  unfold WDist.averageT
  split_ifs
  · simp
  · simp only
    split_ifs
    · simp
    · split
      · split_ifs <;> simp
      · rename_i e he
        intro hc
        rw [Except.error.inj hc] at he
        exact avgOuter_ne_diverge _ _ _ _ _ _ _ _ he

theorem tankValue_ne_diverge (l : Logic) (p : Plant n) : l.tankValue p ≠ .error .diverge := by
  unfold Logic.tankValue
  split
  · rename_i dist _
    cases dist with
    | bottom => simp [Plant.averageDist]
    | top => simp [Plant.averageDist]
    | weighted d => exact averageT_ne_diverge _ _
  · split_ifs <;> simp

theorem anyHolds_ne_diverge (p : Plant n) (ls : List Logic) :
    anyHolds p ls ≠ .error .diverge := by
  induction ls with
  | nil => simp [anyHolds]
  | cons l ls ih =>
    rw [anyHolds]
    rcases h1 : l.holds p with e | b
    · intro hc
      have : e = .diverge := by simpa [bind, Except.bind] using hc
      subst this
      unfold Logic.holds at h1
      split at h1
      · simp at h1
      · rename_i he
        rw [Except.error.inj h1] at he
        exact tankValue_ne_diverge _ _ he
    · rcases h2 : anyHolds p ls with e | r
      · intro hc
        have : e = .diverge := by simpa [bind, Except.bind] using hc
        subst this
        exact ih h2
      · simp [bind, Except.bind, pure, Except.pure]

theorem shutsOff_ne_diverge (s : SourceCfg n k) (p : Plant n) :
    s.shutsOff p ≠ .error .diverge := by
  unfold SourceCfg.shutsOff
  split_ifs
  · simp
  · exact anyHolds_ne_diverge _ _

namespace CtrlEq

theorem refl (s : Sim n k) : CtrlEq s s := ⟨rfl, fun _ => rfl⟩

theorem trans {a b c : Sim n k} (h1 : CtrlEq a b) (h2 : CtrlEq b c) : CtrlEq a c := by
  refine ⟨?_, fun i => ?_⟩
  · rw [h2.rest, h1.rest]
  · rw [h2.st, h1.st]

theorem plant {s s' : Sim n k} (h : CtrlEq s s') : s'.toPlant = s.toPlant := by rw [h.rest]

theorem cfg {s s' : Sim n k} (h : CtrlEq s s') : s'.cfg = s.cfg := by rw [h.rest]

theorem runtime {s s' : Sim n k} (h : CtrlEq s s') (i : Fin k) :
    (s'.st i).runtime_min = (s.st i).runtime_min := by rw [h.st]

theorem input {s s' : Sim n k} (h : CtrlEq s s') (i : Fin k) :
    (s'.st i).energyInput_kWh = (s.st i).energyInput_kWh := by rw [h.st]

theorem output {s s' : Sim n k} (h : CtrlEq s s') (i : Fin k) :
    (s'.st i).energyOutput_kWh = (s.st i).energyOutput_kWh := by rw [h.st]

theorem setSt (s : Sim n k) (i : Fin k) (on lk : Bool) :
    CtrlEq s (s.setSt i { s.st i with isOn := on, lockedOut := lk }) := by
  refine ⟨rfl, fun j => ?_⟩
  unfold Sim.setSt
  by_cases h : j = i
  · subst h; simp
  · simp [h]

theorem disengage (s : Sim n k) (i : Fin k) : CtrlEq s (s.disengage i) :=
  setSt s i false (s.st i).lockedOut

theorem turnAllOff (s : Sim n k) : CtrlEq s s.turnAllOff := ⟨rfl, fun _ => rfl⟩

theorem heating (s : Sim n k) (b : Bool) : CtrlEq s { s with isHeating := b } :=
  ⟨rfl, fun _ => rfl⟩

theorem engageAux (dr : DR) : ∀ (fuel : ℕ) (s s' : Sim n k) (i : Fin k),
    Sim.engageAux dr fuel s i = .ok s' → CtrlEq s s' := by
  intro fuel
  induction fuel with
  | zero => intro s s' i h; exact absurd h (by simp [Sim.engageAux])
  | succ fuel ih =>
    intro s s' i h
    rw [Sim.engageAux] at h
    have h1 : CtrlEq s { s.setSt i { s.st i with isOn := true } with isHeating := true } :=
      (setSt s i true (s.st i).lockedOut).trans (heating _ _)
    split at h
    · rw [← Except.ok.inj h]; exact h1
    · rw [bind_ok_iff] at h
      obtain ⟨off, -, h⟩ := h
      split_ifs at h
      · exact h1.trans (ih _ _ _ h)
      · rw [← Except.ok.inj h]; exact h1

/-- Engaging never loops: each companion that is engaged in turn was off before. -/
theorem engageAux_ne_diverge (dr : DR) : ∀ (fuel : ℕ) (s : Sim n k) (i : Fin k),
    (Finset.univ.filter fun j => (s.st j).isOn = false ∧ j ≠ i).card < fuel →
    Sim.engageAux dr fuel s i ≠ .error .diverge := by
  intro fuel
  induction fuel with
  | zero => intro s i h; omega
  | succ fuel ih =>
    intro s i hc
    rw [Sim.engageAux]
    split
    · simp
    · rename_i j _
      simp only
      set s1 : Sim n k := { s.setSt i { s.st i with isOn := true } with isHeating := true }
      rcases hoff : (s.cfg.src j).shutsOff s1.toPlant with e | off
      · by_cases he : e = .diverge
        · exact absurd (he ▸ hoff) (shutsOff_ne_diverge _ _)
        · simpa [bind, Except.bind] using he
      · rw [show ((Except.ok off : Res Bool) >>= fun off =>
          if (!off && !(s1.st j).isOn && !shouldDRLockOut (s.cfg.src j).kind dr) = true then
            Sim.engageAux dr fuel s1 j else pure s1) =
          (if (!off && !(s1.st j).isOn && !shouldDRLockOut (s.cfg.src j).kind dr) = true then
            Sim.engageAux dr fuel s1 j else pure s1) from rfl]
        split_ifs with hg
        · have hj : (s1.st j).isOn = false := by simp at hg; exact hg.1.2
          have hji : j ≠ i := by
            rintro rfl
            simp [s1, Sim.setSt] at hj
          have hsub : (Finset.univ.filter fun l => (s1.st l).isOn = false ∧ l ≠ j) ⊂
              (Finset.univ.filter fun l => (s.st l).isOn = false ∧ l ≠ i) := by
            rw [Finset.ssubset_iff_of_subset]
            · refine ⟨j, ?_, by simp⟩
              simp only [Finset.mem_filter, Finset.mem_univ, true_and]
              refine ⟨?_, hji⟩
              simpa [s1, Sim.setSt, hji] using hj
            · intro l hl
              simp only [Finset.mem_filter, Finset.mem_univ, true_and] at hl ⊢
              have hli : l ≠ i := by
                rintro rfl
                simp [s1, Sim.setSt] at hl
              refine ⟨?_, hli⟩
              simpa [s1, Sim.setSt, hli] using hl.1
          have := Finset.card_lt_card hsub
          exact ih s1 j (by omega)
        · simp [pure, Except.pure]

theorem engage_ne_diverge (dr : DR) (s : Sim n k) (i : Fin k) :
    s.engage dr i ≠ .error .diverge := by
  refine engageAux_ne_diverge dr _ s i ?_
  have := Finset.card_le_univ (Finset.univ.filter fun j => (s.st j).isOn = false ∧ j ≠ i)
  rw [Fintype.card_fin] at this
  omega

theorem engage {dr : DR} {s s' : Sim n k} {i : Fin k} (h : s.engage dr i = .ok s') : CtrlEq s s' :=
  engageAux dr _ _ _ _ h

theorem handOver {dr : DR} {s s' : Sim n k} {i : Fin k} (h : s.handOver dr i = .ok s') :
    CtrlEq s s' := by
  unfold Sim.handOver at h
  rw [bind_ok_iff] at h
  obtain ⟨off, -, h⟩ := h
  split_ifs at h
  · split at h
    · rw [← Except.ok.inj h]; exact disengage s i
    · rw [bind_ok_iff] at h
      obtain ⟨boff, -, h⟩ := h
      split_ifs at h
      · rw [← Except.ok.inj h]; exact disengage s i
      · exact (disengage s i).trans (engage h)
  · rw [← Except.ok.inj h]; exact refl s

theorem chooseBody {dr : DR} {s : Sim n k} {i : Fin k} {r : Sim n k × Bool}
    (h : s.chooseBody dr i = .ok r) : CtrlEq s r.1 := by
  unfold Sim.chooseBody at h
  by_cases hh : s.isHeating = true
  · rw [if_pos hh, bind_ok_iff] at h
    obtain ⟨s1, h1, h⟩ := h
    have c1 := handOver h1
    by_cases hv : (s.cfg.src i).isVIP = true
    · rw [if_pos hv, bind_ok_iff] at h
      obtain ⟨want, -, h⟩ := h
      split_ifs at h
      · split at h
        · rw [bind_ok_iff] at h
          obtain ⟨s2, h2, h⟩ := h
          rw [← Except.ok.inj h]
          exact c1.trans (engage h2)
        · rw [← Except.ok.inj h]; exact c1
      · rw [bind_ok_iff] at h
        obtain ⟨s2, h2, h⟩ := h
        rw [← Except.ok.inj h]
        exact (c1.trans (turnAllOff s1)).trans (engage h2)
      · rw [← Except.ok.inj h]; exact c1
    · rw [if_neg hv] at h
      rw [← Except.ok.inj h]; exact c1
  · rw [if_neg hh, bind_ok_iff] at h
    obtain ⟨want, -, h⟩ := h
    split_ifs at h
    · rw [bind_ok_iff] at h
      obtain ⟨s1, h1, h⟩ := h
      rw [← Except.ok.inj h]; exact engage h1
    · rw [← Except.ok.inj h]; exact refl s

theorem chooseLoop {dr : DR} : ∀ {is : List (Fin k)} {s s' : Sim n k},
    Sim.chooseLoop dr is s = .ok s' → CtrlEq s s' := by
  intro is
  induction is with
  | nil => intro s s' h; rw [← Except.ok.inj h]; exact refl s
  | cons i is ih =>
    intro s s' h
    rw [Sim.chooseLoop, bind_ok_iff] at h
    obtain ⟨r, hr, h⟩ := h
    split_ifs at h
    · rw [← Except.ok.inj h]; exact chooseBody hr
    · exact (chooseBody hr).trans (ih h)

theorem engageIf {dr : DR} {s s' : Sim n k} {o : Option (Fin k)}
    (h : Sim.engageIf dr s o = .ok s') : CtrlEq s s' := by
  cases o with
  | some j => exact engage h
  | none => rw [← Except.ok.inj h]; exact refl s

theorem topOff {dr : DR} {s s' : Sim n k} (h : s.topOff dr = .ok s') : CtrlEq s s' := by
  unfold Sim.topOff at h
  split_ifs at h
  · rw [bind_ok_iff] at h
    obtain ⟨s1, h1, h⟩ := h
    exact (engageIf h1).trans (engageIf h)
  · rw [← Except.ok.inj h]; exact refl s

theorem toLockOrUnlock_eq {s : SourceCfg n k} {c : CondCfg} {st x : SourceState} {p : Plant n}
    {amb : ℚ} (h : toLockOrUnlock s c st p amb = .ok x) :
    x = { st with lockedOut := x.lockedOut } := by
  unfold toLockOrUnlock at h
  rw [bind_ok_iff] at h
  obtain ⟨l, -, h⟩ := h
  rw [bind_ok_iff] at h
  obtain ⟨u, -, h⟩ := h
  rw [← Except.ok.inj h]
  cases l <;> cases u <;> rfl

theorem lock {amb : ℚ} {s : Sim n k} {i : Fin k} {c : CondCfg} {x : SourceState}
    (h : toLockOrUnlock (s.cfg.src i) c (s.st i) s.toPlant amb = .ok x) :
    CtrlEq s (s.setSt i x) := by
  rw [toLockOrUnlock_eq h]
  exact setSt s i (s.st i).isOn x.lockedOut

theorem lockUnlock {dr : DR} {amb : ℚ} {s s' : Sim n k} {i : Fin k}
    (h : Sim.lockUnlock dr amb s i = .ok s') : CtrlEq s s' := by
  unfold Sim.lockUnlock at h
  split_ifs at h
  · rw [← Except.ok.inj h]; exact setSt s i (s.st i).isOn true
  · split at h
    · rw [bind_ok_iff] at h
      obtain ⟨x, hx, h⟩ := h
      rw [← Except.ok.inj h]; exact lock hx
    · rw [← Except.ok.inj h]; exact setSt s i (s.st i).isOn false

theorem applyLocks {dr : DR} {amb : ℚ} {s s' : Sim n k} {i : Fin k}
    (h : Sim.applyLocks dr amb s i = .ok s') : CtrlEq s s' := by
  unfold Sim.applyLocks at h
  rw [bind_ok_iff] at h
  obtain ⟨s1, h1, h⟩ := h
  split_ifs at h
  · rw [← Except.ok.inj h]; exact (lockUnlock h1).trans (disengage _ _)
  · rw [← Except.ok.inj h]; exact lockUnlock h1

theorem backupBarred {dr : DR} {amb : ℚ} {s : Sim n k} {i b : Fin k} {r : Sim n k × Bool}
    (h : Sim.backupBarred dr amb s i b = .ok r) : CtrlEq s r.1 := by
  unfold Sim.backupBarred at h
  split at h
  · rw [bind_ok_iff] at h
    obtain ⟨x, hx, h⟩ := h
    rw [← Except.ok.inj h]; exact lock hx
  · split at h
    · rw [← Except.ok.inj h]; exact refl s
    · rw [← Except.ok.inj h]; exact refl s

theorem pickSource {dr : DR} {amb : ℚ} {s : Sim n k} {i : Fin k} {r : Sim n k × Option (Fin k)}
    (h : Sim.pickSource dr amb s i = .ok r) : CtrlEq s r.1 := by
  unfold Sim.pickSource at h
  split_ifs at h
  · split at h
    · rw [← Except.ok.inj h]; exact refl s
    · rw [bind_ok_iff] at h
      obtain ⟨q, hq, h⟩ := h
      split_ifs at h
      all_goals rw [← Except.ok.inj h]; exact backupBarred hq
  · rw [← Except.ok.inj h]; exact refl s

theorem backupFree {dr : DR} {amb : ℚ} {s : Sim n k} {b : Fin k} {r : Sim n k × Bool}
    (h : Sim.backupFree dr amb s b = .ok r) : CtrlEq s r.1 := by
  unfold Sim.backupFree at h
  split at h
  · rw [bind_ok_iff] at h
    obtain ⟨x, hx, h⟩ := h
    rw [← Except.ok.inj h]; exact lock hx
  · rw [← Except.ok.inj h]; exact refl s

end CtrlEq

/-! ## Demand-response lock-out -/

theorem lockUnlock_dr {dr : DR} {amb : ℚ} {s s' : Sim n k} {i : Fin k}
    (h : Sim.lockUnlock dr amb s i = .ok s') (hl : shouldDRLockOut (s.cfg.src i).kind dr = true) :
    (s'.st i).lockedOut = true := by
  unfold Sim.lockUnlock at h
  rw [if_pos hl] at h
  rw [← Except.ok.inj h]
  simp [Sim.setSt]

/-- A heat source picked for running is not locked out by demand response. -/
theorem pickSource_dr {dr : DR} {amb : ℚ} {s s1 : Sim n k} {i j : Fin k}
    {r : Sim n k × Option (Fin k)} (h1 : Sim.applyLocks dr amb s i = .ok s1)
    (hon : (s1.st i).isOn = true) (h : Sim.pickSource dr amb s1 i = .ok r) (hj : r.2 = some j) :
    shouldDRLockOut (s.cfg.src j).kind dr = false := by
  have c1 := CtrlEq.applyLocks h1
  unfold Sim.pickSource at h
  split_ifs at h with hl
  · split at h
    · -- locked out without backup: disengaged
      rename_i hb
      rw [c1.cfg] at hb
      unfold Sim.applyLocks at h1
      rw [bind_ok_iff] at h1
      obtain ⟨s0, h0, h1⟩ := h1
      by_cases hl0 : (s0.st i).lockedOut = true
      · rw [hl0, hb] at h1
        have e : s0.disengage i = s1 := by
          rw [if_pos (by rfl)] at h1
          exact Except.ok.inj h1
        rw [← e] at hon
        simp [Sim.disengage, Sim.setSt] at hon
      · have e : s0 = s1 := by
          rw [if_neg (by simp [hl0])] at h1
          exact Except.ok.inj h1
        rw [e] at hl0
        exact absurd hl hl0
    · rename_i b hb
      rw [bind_ok_iff] at h
      obtain ⟨q, hq, h⟩ := h
      split_ifs at h with h2 h3
      · rw [← Except.ok.inj h] at hj; exact absurd hj (by simp)
      · rw [← Except.ok.inj h] at hj; exact absurd hj (by simp)
      · rw [← Except.ok.inj h] at hj
        have hbj : b = j := by simpa using hj
        subst hbj
        unfold Sim.backupBarred at hq
        rw [c1.cfg] at hq
        by_contra hc
        have hc : shouldDRLockOut (s.cfg.src b).kind dr = true := by simpa using hc
        apply h2
        split at hq
        · rw [bind_ok_iff] at hq
          obtain ⟨x, -, hq⟩ := hq
          rw [← Except.ok.inj hq]
          simp [hc]
        · split at hq
          all_goals
            rw [← Except.ok.inj hq]
            simp [hc]
  · rw [← Except.ok.inj h] at hj
    have hbj : i = j := by simpa using hj
    subst hbj
    by_contra hc
    have hc : shouldDRLockOut (s.cfg.src i).kind dr = true := by simpa using hc
    unfold Sim.applyLocks at h1
    rw [bind_ok_iff] at h1
    obtain ⟨s0, h0, h1⟩ := h1
    have hl0 := lockUnlock_dr h0 hc
    apply hl
    split_ifs at h1
    · rw [← Except.ok.inj h1]; simpa [Sim.disengage, Sim.setSt] using hl0
    · rw [← Except.ok.inj h1]; exact hl0

theorem backupFree_dr {dr : DR} {amb : ℚ} {s : Sim n k} {b : Fin k} {r : Sim n k × Bool}
    (h : Sim.backupFree dr amb s b = .ok r) (hr : r.2 = true) :
    shouldDRLockOut (s.cfg.src b).kind dr = false := by
  unfold Sim.backupFree at h
  split at h
  · rw [bind_ok_iff] at h
    obtain ⟨x, hx, h⟩ := h
    rw [← Except.ok.inj h] at hr
    simp at hr
    exact hr.1.2
  · rw [← Except.ok.inj h] at hr
    simp at hr
    exact hr.2

/-! ## Induction over the heating of a step -/

theorem addHeat_cfg {m : Libm} {fuel : ℕ} {s s' : Sim n k} {i : Fin k} {amb minutes : ℚ}
    (h : s.addHeat m fuel i amb minutes = .ok s') : s'.cfg = s.cfg := by
  unfold Sim.addHeat at h
  rw [bind_ok_iff] at h
  obtain ⟨r, -, h⟩ := h
  rw [← Except.ok.inj h]

theorem setSetpoint_eq {s s' : Sim n k} {x : ℚ} (h : s.setSetpoint x = .ok s') :
    s' = { s with setpoint := x } := by
  unfold Sim.setSetpoint at h
  split_ifs at h
  exact (Except.ok.inj h).symm

theorem addHeatParent_cases {m : Libm} {fuel : ℕ} {s s' : Sim n k} {i : Fin k} {amb minutes : ℚ}
    (h : s.addHeatParent m fuel i amb minutes = .ok s') :
    s.addHeat m fuel i amb minutes = .ok s' ∨
    ∃ c s2, (s.cfg.src i).kind = .condenser c ∧ amb ≤ c.maxOutAirT ∧ c.maxOutT ≤ s.setpoint ∧
      s.setSetpoint c.maxOutT = .ok { s with setpoint := c.maxOutT } ∧
      Sim.addHeat m fuel { s with setpoint := c.maxOutT } i amb minutes = .ok s2 ∧
      (s.setpoint > Sim.noSetpoint ∧ s' = { s2 with setpoint := s.setpoint } ∨
        ¬ s.setpoint > Sim.noSetpoint ∧ s' = s2) := by
  unfold Sim.addHeatParent at h
  split at h
  · exact .inl h
  · rename_i c hc
    by_cases hm : amb ≤ c.maxOutAirT ∧ s.setpoint ≥ c.maxOutT
    · rw [if_pos hm, bind_ok_iff] at h
      obtain ⟨s1, h1, h⟩ := h
      rw [bind_ok_iff] at h
      obtain ⟨s2, h2, h⟩ := h
      have e1 := setSetpoint_eq h1
      subst e1
      refine .inr ⟨c, s2, hc, hm.1, hm.2, h1, h2, ?_⟩
      by_cases hs : s.setpoint > Sim.noSetpoint
      · rw [if_pos hs] at h
        exact .inl ⟨hs, setSetpoint_eq h⟩
      · rw [if_neg hs] at h
        exact .inr ⟨hs, (Except.ok.inj h).symm⟩
    · rw [if_neg hm] at h
      exact .inl h

theorem addHeatParent_cfg {m : Libm} {fuel : ℕ} {s s' : Sim n k} {i : Fin k} {amb minutes : ℚ}
    (h : s.addHeatParent m fuel i amb minutes = .ok s') : s'.cfg = s.cfg := by
  rcases addHeatParent_cases h with h | ⟨c, s2, -, -, -, -, h2, ⟨-, e⟩ | ⟨-, e⟩⟩
  · exact addHeat_cfg h
  · rw [e]; have := addHeat_cfg h2; exact this
  · rw [e]; have := addHeat_cfg h2; exact this

/-- Induction principle for the heating of a step with settings `cfg`: `Inv` is an invariant of the
state, `Q` of the minutes left. Control decisions preserve `Inv`; running a heat source that demand
response does not lock out, and that is one of those in `A`, preserves both. -/
structure HeatInduction (m : Libm) (fuel : ℕ) (dr : DR) (amb : ℚ) (cfg : SimCfg n k)
    (A : Fin k → Prop) (Inv : Sim n k → Prop) (Q : ℚ → Prop) : Prop where
  fixed : ∀ s, Inv s → s.cfg = cfg
  ctrl : ∀ s s', CtrlEq s s' → Inv s → Inv s'
  heat : ∀ s s' j minutes, A j → Inv s → Q minutes →
    shouldDRLockOut (cfg.src j).kind dr = false →
    s.addHeatParent m fuel j amb minutes = .ok s' →
    Inv s' ∧ ((s'.st j).runtime_min < minutes → Q (minutes - (s'.st j).runtime_min))
  back : ∀ s b minutes, Inv s → Q minutes → 0 ≤ minutes - (s.st b).runtime_min →
    Q (minutes - (s.st b).runtime_min)

/-- Heat source `i` and its backup are among those in `A`. -/
def SimCfg.Covers (cfg : SimCfg n k) (A : Fin k → Prop) (i : Fin k) : Prop :=
  A i ∧ ∀ b, (cfg.src i).backup = some b → A b

namespace HeatInduction

variable {m : Libm} {fuel : ℕ} {dr : DR} {amb : ℚ} {cfg : SimCfg n k} {A : Fin k → Prop}
  {Inv : Sim n k → Prop} {Q : ℚ → Prop}

theorem runBackup (H : HeatInduction m fuel dr amb cfg A Inv Q) {s s' : Sim n k} {b : Fin k}
    {minutes : ℚ} (hA : A b) (hi : Inv s) (hq : Q minutes)
    (h : Sim.runBackup m fuel dr amb s b minutes = .ok s') : Inv s' := by
  unfold Sim.runBackup at h
  rw [bind_ok_iff] at h
  obtain ⟨r, hr, h⟩ := h
  have c1 := CtrlEq.backupFree hr
  split_ifs at h with h1
  · rw [bind_ok_iff] at h
    obtain ⟨s1, hs1, h⟩ := h
    have c2 := CtrlEq.engage hs1
    have i1 := H.ctrl _ _ (c1.trans c2) hi
    split_ifs at h with h2
    · refine (H.heat _ _ _ _ hA i1 (H.back _ _ _ i1 hq h2) ?_ h).1
      rw [← H.fixed s hi]
      exact backupFree_dr hr h1
    · rw [← Except.ok.inj h]; exact i1
  · rw [← Except.ok.inj h]; exact H.ctrl _ _ c1 hi

theorem afterEarly (H : HeatInduction m fuel dr amb cfg A Inv Q) {s s' : Sim n k} {i : Fin k}
    {minutes : ℚ} (hA : cfg.Covers A i) (hi : Inv s) (hq : Q minutes)
    (h : Sim.afterEarly m fuel dr amb s i minutes = .ok s') : Inv s' := by
  unfold Sim.afterEarly at h
  have i1 := H.ctrl _ _ (CtrlEq.disengage s i) hi
  simp only at h
  rw [bind_ok_iff] at h
  obtain ⟨f, -, h⟩ := h
  split at h
  · exact H.ctrl _ _ (CtrlEq.engage h) i1
  · rw [bind_ok_iff] at h
    obtain ⟨mx, -, h⟩ := h
    split at h
    · rename_i b hb
      rw [H.fixed s hi] at hb
      exact H.runBackup (hA.2 _ hb) i1 hq h
    · rw [← Except.ok.inj h]; exact i1

theorem runSource (H : HeatInduction m fuel dr amb cfg A Inv Q) {s : Sim n k} {i j : Fin k}
    {minutes : ℚ} {r : Sim n k × ℚ} (hA : cfg.Covers A i) (hj : A j) (hi : Inv s)
    (hq : Q minutes) (hdr : shouldDRLockOut (cfg.src j).kind dr = false)
    (h : Sim.runSource m fuel dr amb s i j minutes = .ok r) : Inv r.1 ∧ Q r.2 := by
  unfold Sim.runSource at h
  rw [bind_ok_iff] at h
  obtain ⟨s1, h1, h⟩ := h
  obtain ⟨i1, q1⟩ := H.heat _ _ _ _ hj hi hq hdr h1
  split_ifs at h with hlt
  · rw [bind_ok_iff] at h
    obtain ⟨s2, h2, h⟩ := h
    rw [← Except.ok.inj h]
    exact ⟨H.afterEarly hA i1 (q1 hlt) h2, q1 hlt⟩
  · rw [← Except.ok.inj h]
    exact ⟨i1, hq⟩

/-- What runs in place of an engaged heat source is that heat source or its backup. -/
theorem _root_.HPWH.pickSource_cases {s : Sim n k} {i j : Fin k} {r : Sim n k × Option (Fin k)}
    (h : Sim.pickSource dr amb s i = .ok r) (hj : r.2 = some j) :
    j = i ∨ (s.cfg.src i).backup = some j := by
  unfold Sim.pickSource at h
  split_ifs at h with hl
  · split at h
    · rw [← Except.ok.inj h] at hj
      exact Or.inl (Option.some.inj hj).symm
    · rename_i b hb
      rw [bind_ok_iff] at h
      obtain ⟨q, hq, h⟩ := h
      split_ifs at h with h2 h3
      · rw [← Except.ok.inj h] at hj; exact absurd hj (by simp)
      · rw [← Except.ok.inj h] at hj; exact absurd hj (by simp)
      · rw [← Except.ok.inj h] at hj
        rw [hb]
        exact Or.inr hj
  · rw [← Except.ok.inj h] at hj
    exact Or.inl (Option.some.inj hj).symm

theorem heatBody (H : HeatInduction m fuel dr amb cfg A Inv Q) {s : Sim n k} {i : Fin k}
    {minutes : ℚ} {r : Sim n k × ℚ} (hA : cfg.Covers A i) (hi : Inv s) (hq : Q minutes)
    (h : Sim.heatBody m fuel dr amb s i minutes = .ok r) : Inv r.1 ∧ Q r.2 := by
  unfold Sim.heatBody at h
  rw [bind_ok_iff] at h
  obtain ⟨s1, h1, h⟩ := h
  have c1 := CtrlEq.applyLocks h1
  have i1 := H.ctrl _ _ c1 hi
  split_ifs at h with hon
  · rw [bind_ok_iff] at h
    obtain ⟨q, hq', h⟩ := h
    have c2 := CtrlEq.pickSource hq'
    have i2 := H.ctrl _ _ c2 i1
    split at h
    · rw [← Except.ok.inj h]; exact ⟨i2, hq⟩
    · rename_i j hj
      have hjA : A j := by
        rcases pickSource_cases hq' hj with rfl | hb
        · exact hA.1
        · rw [H.fixed s1 i1] at hb
          exact hA.2 _ hb
      refine H.runSource hA hjA i2 hq ?_ h
      rw [← H.fixed s hi]
      exact pickSource_dr h1 hon hq' hj
  · rw [← Except.ok.inj h]; exact ⟨i1, hq⟩

theorem heatSrcLoop (H : HeatInduction m fuel dr amb cfg A Inv Q) : ∀ {is : List (Fin k)}
    {s s' : Sim n k} {minutes : ℚ}, (∀ i ∈ is, cfg.Covers A i) → Inv s → Q minutes →
    Sim.heatSrcLoop m fuel dr amb is s minutes = .ok s' → Inv s' := by
  intro is
  induction is with
  | nil => intro s s' minutes _ hi _ h; rw [← Except.ok.inj h]; exact hi
  | cons i is ih =>
    intro s s' minutes hA hi hq h
    rw [Sim.heatSrcLoop, bind_ok_iff] at h
    obtain ⟨r, hr, h⟩ := h
    obtain ⟨i1, q1⟩ := H.heatBody (hA i (by simp)) hi hq hr
    exact ih (fun j hj => hA j (by simp [hj])) i1 q1 h

theorem control (H : HeatInduction m fuel dr amb cfg (fun _ => True) Inv Q) {s s' : Sim n k}
    (hi : Inv s) (hq : Q cfg.minutesPerStep) (h : Sim.control m fuel dr amb s = .ok s') :
    Inv s' := by
  unfold Sim.control at h
  rw [bind_ok_iff] at h
  obtain ⟨s1, h1, h⟩ := h
  have i1 : Inv s1 := by
    unfold Sim.normalControl at h1
    split_ifs at h1
    · rw [← Except.ok.inj h1]; exact H.ctrl _ _ (CtrlEq.turnAllOff s) hi
    · rw [bind_ok_iff] at h1
      obtain ⟨a, ha, h1⟩ := h1
      rw [bind_ok_iff] at h1
      obtain ⟨b, hb, h1⟩ := h1
      have ib := H.ctrl _ _ ((CtrlEq.topOff ha).trans (CtrlEq.chooseLoop hb)) hi
      rw [H.fixed s hi] at h1
      exact H.heatSrcLoop (fun _ _ => ⟨trivial, fun _ _ => trivial⟩) ib hq h1
  rw [← Except.ok.inj h]
  split_ifs
  · exact H.ctrl _ _ (CtrlEq.heating s1 false) i1
  · exact i1

end HeatInduction

end HPWH
