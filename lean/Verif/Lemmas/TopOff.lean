import Verif.Lemmas.Standby
import Verif.Lemmas.StepFrame
import Mathlib.Data.Finset.Insert

/-! Helper lemmas about top-off signals. -/

namespace HPWH

variable {n k : ℕ}

namespace TopOff

open Standby (map_bind bind_map map_ite map_pure map_ok map_error)

theorem lock (d : DR) (κ : SourceKind) : shouldDRLockOut κ d.noTopOff = shouldDRLockOut κ d := by
  cases κ <;> rfl

theorem engageAux (d : DR) : ∀ (fuel : ℕ), (Sim.engageAux d.noTopOff fuel : Sim n k → _) =
    Sim.engageAux d fuel := by
  intro fuel
  induction fuel with
  | zero => funext s i; rfl
  | succ fuel ih =>
    funext s i
    rw [Sim.engageAux, Sim.engageAux, ih]
    simp only [lock]

theorem engage (d : DR) : (Sim.engage d.noTopOff : Sim n k → _) = Sim.engage d := engageAux d _

theorem chooseLoop (d : DR) : ∀ (l : List (Fin k)) (s : Sim n k),
    Sim.chooseLoop d.noTopOff l s = Sim.chooseLoop d l s := by
  intro l
  induction l with
  | nil => intro s; rfl
  | cons i l ih =>
    intro s
    rw [Sim.chooseLoop, Sim.chooseLoop]
    simp only [ih, Sim.chooseBody, Sim.handOver, engage, lock]

theorem heatSrcLoop (m : Libm) (fuel : ℕ) (d : DR) (amb : ℚ) : ∀ (l : List (Fin k)) (s : Sim n k)
    (minutes : ℚ), Sim.heatSrcLoop m fuel d.noTopOff amb l s minutes =
      Sim.heatSrcLoop m fuel d amb l s minutes := by
  intro l
  induction l with
  | nil => intro s minutes; rfl
  | cons i l ih =>
    intro s minutes
    rw [Sim.heatSrcLoop, Sim.heatSrcLoop]
    simp only [ih, Sim.heatBody, Sim.runSource, Sim.afterEarly, Sim.runBackup, Sim.backupFree,
      Sim.pickSource, Sim.backupBarred, Sim.applyLocks, Sim.lockUnlock, engage, lock]

theorem normalControl (m : Libm) (fuel : ℕ) (d : DR) (amb : ℚ) (s : Sim n k) :
    Sim.normalControl m fuel d amb s =
      if d.loc && d.lor then .ok s.turnAllOff
      else Sim.topOff d s >>= Sim.normalControl m fuel d.noTopOff amb := by
  have hn : (Sim.normalControl m fuel d.noTopOff amb : Sim n k → _) = fun a =>
      if d.loc && d.lor then .ok a.turnAllOff
      else Sim.chooseLoop d (List.finRange k) a >>= fun b =>
        Sim.heatSrcLoop m fuel d amb (List.finRange k) b a.cfg.minutesPerStep := by
    funext a
    unfold Sim.normalControl
    simp only [chooseLoop, heatSrcLoop]
    rfl
  rw [hn]
  unfold Sim.normalControl
  by_cases h : (d.loc && d.lor) = true
  · rw [if_pos h, if_pos h]
  · rw [if_neg h, if_neg h]
    cases ha : Sim.topOff d s with
    | error e => rfl
    | ok a =>
      have : a.cfg = s.cfg := (CtrlEq.topOff ha).cfg
      simp only [bind, Except.bind, h, this]
      rfl

/-- Without a top-off signal, or with the timer running, nothing is forced on. -/
theorem control_running (m : Libm) (fuel : ℕ) (d : DR) (amb : ℚ) (s : Sim n k)
    (h : s.timerTOT ≠ 0) :
    Sim.control m fuel d amb s = Sim.control m fuel d.noTopOff amb s := by
  unfold Sim.control
  rw [normalControl]
  have ht : Sim.topOff d s = .ok s := by
    unfold Sim.topOff
    rw [if_neg (by simp [h])]
  rw [ht]
  by_cases hl : (d.loc && d.lor) = true
  · rw [if_pos hl]
    unfold Sim.normalControl
    rw [if_pos (by exact hl)]
  · rw [if_neg hl]; rfl

theorem engageAux_switched (d : DR) : ∀ (fuel : ℕ) (s s' : Sim n k) (i : Fin k),
    Sim.engageAux d fuel s i = .ok s' →
    ∃ E : Finset (Fin k), s' = s.switchedOn E ∧ i ∈ E ∧
      ∀ j ∈ E, j = i ∨ ∃ l ∈ E, (s.cfg.src l).companion = some j := by
  intro fuel
  induction fuel with
  | zero => intro s s' i h; cases h
  | succ fuel ih =>
    intro s s' i h
    rw [Sim.engageAux] at h
    have h1 : ({ s.setSt i { s.st i with isOn := true } with isHeating := true } : Sim n k) =
        s.switchedOn {i} := by
      unfold Sim.setSt Sim.switchedOn
      simp only [Finset.singleton_nonempty, decide_true, Bool.or_true, Finset.mem_singleton]
      congr 1
      funext j
      by_cases hj : j = i
      · subst hj; simp
      · simp [hj]
    have base : ∀ j ∈ ({i} : Finset (Fin k)),
        j = i ∨ ∃ l ∈ ({i} : Finset (Fin k)), (s.cfg.src l).companion = some j :=
      fun j hj => .inl (by simpa using hj)
    split at h
    · rw [← Except.ok.inj h]; exact ⟨{i}, h1, by simp, base⟩
    · rename_i j hc
      rw [bind_ok_iff] at h
      obtain ⟨off, -, h⟩ := h
      split_ifs at h
      · obtain ⟨E, e1, e2, e3⟩ := ih _ _ _ h
        rw [h1] at e1
        refine ⟨insert i E, ?_, by simp, ?_⟩
        · rw [e1]
          unfold Sim.switchedOn
          simp only [Finset.singleton_nonempty, decide_true, Bool.or_true, Bool.true_or,
            Finset.insert_nonempty, Finset.mem_singleton, Finset.mem_insert, Bool.or_assoc,
            Bool.decide_or]
        · intro l hl
          rcases Finset.mem_insert.mp hl with rfl | hl
          · exact .inl rfl
          · rcases e3 l hl with rfl | ⟨q, hq, hq'⟩
            · exact .inr ⟨i, by simp, hc⟩
            · exact .inr ⟨q, by simp [hq], hq'⟩
      · rw [← Except.ok.inj h]; exact ⟨{i}, h1, by simp, base⟩

theorem switchedOn_empty (s : Sim n k) : s.switchedOn ∅ = s := by
  unfold Sim.switchedOn
  simp

theorem switchedOn_union (s : Sim n k) (E F : Finset (Fin k)) :
    (s.switchedOn E).switchedOn F = s.switchedOn (E ∪ F) := by
  unfold Sim.switchedOn
  simp only [Bool.or_assoc, Finset.mem_union, Bool.decide_or, Finset.union_nonempty]

theorem engageIf_switched {d : DR} {s s' : Sim n k} {o : Option (Fin k)}
    (h : Sim.engageIf d s o = .ok s') :
    ∃ E : Finset (Fin k), s' = s.switchedOn E ∧ (∀ i, o = some i → i ∈ E) ∧
      ∀ j ∈ E, o = some j ∨ ∃ l ∈ E, (s.cfg.src l).companion = some j := by
  cases o with
  | none =>
    rw [← Except.ok.inj h]
    exact ⟨∅, (switchedOn_empty s).symm, by simp, by simp⟩
  | some i =>
    obtain ⟨E, e1, e2, e3⟩ := engageAux_switched d _ s s' i h
    refine ⟨E, e1, fun j hj => Option.some.inj hj ▸ e2, fun j hj => ?_⟩
    rcases e3 j hj with rfl | h
    · exact .inl rfl
    · exact .inr h

theorem topOff_switched {d : DR} {s s' : Sim n k} (ht : s.timerTOT = 0)
    (hd : d.too = true ∨ d.tot = true) (h : Sim.topOff d s = .ok s') :
    ∃ E : Finset (Fin k), s' = s.switchedOn E ∧
      (∀ i, s.cfg.compressorIndex = some i ∨ s.cfg.lowestElementIndex = some i → i ∈ E) ∧
      ∀ j ∈ E, s.cfg.compressorIndex = some j ∨ s.cfg.lowestElementIndex = some j ∨
        ∃ l ∈ E, (s.cfg.src l).companion = some j := by
  unfold Sim.topOff at h
  rw [if_pos (by simpa [ht] using hd), bind_ok_iff] at h
  obtain ⟨s1, h1, h⟩ := h
  obtain ⟨E, rfl, e2, e3⟩ := engageIf_switched h1
  obtain ⟨F, rfl, f2, f3⟩ := engageIf_switched h
  refine ⟨E ∪ F, switchedOn_union s E F, ?_, ?_⟩
  · rintro i (hi | hi)
    · exact Finset.mem_union_left _ (e2 i hi)
    · exact Finset.mem_union_right _ (f2 i hi)
  · intro j hj
    rcases Finset.mem_union.mp hj with hj | hj
    · rcases e3 j hj with h | ⟨l, hl, hl'⟩
      · exact .inl h
      · exact .inr (.inr ⟨l, Finset.mem_union_left _ hl, hl'⟩)
    · rcases f3 j hj with h | ⟨l, hl, hl'⟩
      · exact .inr (.inl h)
      · exact .inr (.inr ⟨l, Finset.mem_union_right _ hl, hl'⟩)

/-- With a top-off signal and the timer at zero, the step goes as if the compressor and the lowest
element (and companions) had been on before. -/
theorem control_forced (m : Libm) (fuel : ℕ) (d : DR) (amb : ℚ) (s s' : Sim n k)
    (ht : s.timerTOT = 0) (hd : d.too = true ∨ d.tot = true)
    (h : Sim.control m fuel d amb s = .ok s') :
    ∃ E : Finset (Fin k), Sim.control m fuel d.noTopOff amb (s.switchedOn E) = .ok s' ∧
      (∀ i, s.cfg.compressorIndex = some i ∨ s.cfg.lowestElementIndex = some i → i ∈ E) ∧
      ∀ j ∈ E, s.cfg.compressorIndex = some j ∨ s.cfg.lowestElementIndex = some j ∨
        ∃ l ∈ E, (s.cfg.src l).companion = some j := by
  unfold Sim.control at h ⊢
  rw [normalControl] at h
  by_cases hl : (d.loc && d.lor) = true
  · rw [if_pos hl] at h
    set E : Finset (Fin k) := Finset.univ.filter fun i =>
      s.cfg.compressorIndex = some i ∨ s.cfg.lowestElementIndex = some i
    refine ⟨E, ?_, fun i hi => by simpa [E] using hi, fun j hj => ?_⟩
    · unfold Sim.normalControl
      rw [if_pos (by exact hl)]
      exact h
    · have : s.cfg.compressorIndex = some j ∨ s.cfg.lowestElementIndex = some j := by
        simpa [E] using hj
      rcases this with h | h
      · exact .inl h
      · exact .inr (.inl h)
  · rw [if_neg hl] at h
    rw [bind_ok_iff] at h
    obtain ⟨s1, h1, h⟩ := h
    rw [bind_ok_iff] at h1
    obtain ⟨a, ha, h1⟩ := h1
    obtain ⟨E, rfl, e2, e3⟩ := topOff_switched ht hd ha
    exact ⟨E, by rw [h1]; exact h, e2, e3⟩

end TopOff

end HPWH
