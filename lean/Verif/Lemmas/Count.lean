import Verif.Lemmas.Step

/-! How often a heat source is run in a step. -/

namespace HPWH

variable {n k : ℕ}

/-- As `HeatInduction`, with a count of the runs of heat source `x` so far. -/
structure CountInduction (m : Libm) (fuel : ℕ) (dr : DR) (amb : ℚ) (cfg : SimCfg n k)
    (x : Fin k) (Inv : ℕ → Sim n k → Prop) (Q : ℚ → Prop) : Prop where
  fixed : ∀ c s, Inv c s → s.cfg = cfg
  mono : ∀ c c' s, c ≤ c' → Inv c s → Inv c' s
  ctrl : ∀ c s s', CtrlEq s s' → Inv c s → Inv c s'
  heat : ∀ c s s' j minutes, Inv c s → Q minutes →
    s.addHeatParent m fuel j amb minutes = .ok s' →
    Inv (c + if j = x then 1 else 0) s' ∧
      ((s'.st j).runtime_min < minutes → Q (minutes - (s'.st j).runtime_min))
  back : ∀ c s b minutes, Inv c s → Q minutes → 0 ≤ minutes - (s.st b).runtime_min →
    Q (minutes - (s.st b).runtime_min)

/-- 1 if heat source `x` is the backup of `i`. -/
def SimCfg.backs (cfg : SimCfg n k) (x i : Fin k) : ℕ :=
  if (cfg.src i).backup = some x then 1 else 0

namespace CountInduction

variable {m : Libm} {fuel : ℕ} {dr : DR} {amb : ℚ} {cfg : SimCfg n k} {x : Fin k}
  {Inv : ℕ → Sim n k → Prop} {Q : ℚ → Prop}

theorem runBackup (H : CountInduction m fuel dr amb cfg x Inv Q) {c : ℕ} {s s' : Sim n k}
    {b : Fin k} {minutes : ℚ} (hi : Inv c s) (hq : Q minutes)
    (h : Sim.runBackup m fuel dr amb s b minutes = .ok s') :
    Inv (c + if b = x then 1 else 0) s' := by
  unfold Sim.runBackup at h
  rw [bind_ok_iff] at h
  obtain ⟨r, hr, h⟩ := h
  have c1 := CtrlEq.backupFree hr
  split_ifs at h with h1
  · rw [bind_ok_iff] at h
    obtain ⟨s1, hs1, h⟩ := h
    have c2 := CtrlEq.engage hs1
    have i1 := H.ctrl _ _ _ (c1.trans c2) hi
    split_ifs at h with h2
    · exact (H.heat _ _ _ _ _ i1 (H.back _ _ _ _ i1 hq h2) h).1
    · rw [← Except.ok.inj h]; exact H.mono _ _ _ (by omega) i1
  · rw [← Except.ok.inj h]; exact H.mono _ _ _ (by omega) (H.ctrl _ _ _ c1 hi)

theorem afterEarly (H : CountInduction m fuel dr amb cfg x Inv Q) {c : ℕ} {s s' : Sim n k}
    {i : Fin k} {minutes : ℚ} (hi : Inv c s) (hq : Q minutes)
    (h : Sim.afterEarly m fuel dr amb s i minutes = .ok s') : Inv (c + cfg.backs x i) s' := by
  unfold Sim.afterEarly at h
  have i1 := H.ctrl _ _ _ (CtrlEq.disengage s i) hi
  simp only at h
  rw [bind_ok_iff] at h
  obtain ⟨f, -, h⟩ := h
  split at h
  · exact H.mono _ _ _ (by omega) (H.ctrl _ _ _ (CtrlEq.engage h) i1)
  · rw [bind_ok_iff] at h
    obtain ⟨mx, -, h⟩ := h
    split at h
    · rename_i b hb
      rw [H.fixed _ s hi] at hb
      have := H.runBackup i1 hq h
      unfold SimCfg.backs
      rw [hb]
      simpa using this
    · rw [← Except.ok.inj h]; exact H.mono _ _ _ (by omega) i1

theorem runSource (H : CountInduction m fuel dr amb cfg x Inv Q) {c : ℕ} {s : Sim n k}
    {i j : Fin k} {minutes : ℚ} {r : Sim n k × ℚ} (hi : Inv c s) (hq : Q minutes)
    (h : Sim.runSource m fuel dr amb s i j minutes = .ok r) :
    Inv (c + (if j = x then 1 else 0) + cfg.backs x i) r.1 ∧ Q r.2 := by
  unfold Sim.runSource at h
  rw [bind_ok_iff] at h
  obtain ⟨s1, h1, h⟩ := h
  obtain ⟨i1, q1⟩ := H.heat _ _ _ _ _ hi hq h1
  split_ifs at h with hlt
  · rw [bind_ok_iff] at h
    obtain ⟨s2, h2, h⟩ := h
    rw [← Except.ok.inj h]
    exact ⟨H.afterEarly i1 (q1 hlt) h2, q1 hlt⟩
  · rw [← Except.ok.inj h]
    exact ⟨H.mono _ _ _ (by omega) i1, hq⟩

theorem heatBody (H : CountInduction m fuel dr amb cfg x Inv Q) {c : ℕ} {s : Sim n k} {i : Fin k}
    {minutes : ℚ} {r : Sim n k × ℚ} (hi : Inv c s) (hq : Q minutes)
    (h : Sim.heatBody m fuel dr amb s i minutes = .ok r) :
    Inv (c + ((if i = x then 1 else 0) + 2 * cfg.backs x i)) r.1 ∧ Q r.2 := by
  unfold Sim.heatBody at h
  rw [bind_ok_iff] at h
  obtain ⟨s1, h1, h⟩ := h
  have c1 := CtrlEq.applyLocks h1
  have i1 := H.ctrl _ _ _ c1 hi
  split_ifs at h with hon
  · rw [bind_ok_iff] at h
    obtain ⟨q, hq', h⟩ := h
    have c2 := CtrlEq.pickSource hq'
    have i2 := H.ctrl _ _ _ c2 i1
    split at h
    · rw [← Except.ok.inj h]; exact ⟨H.mono _ _ _ (by omega) i2, hq⟩
    · rename_i j hj
      obtain ⟨a, b⟩ := H.runSource i2 hq h
      refine ⟨H.mono _ _ _ ?_ a, b⟩
      rcases pickSource_cases hq' hj with rfl | hb
      · omega
      · rw [H.fixed _ s1 i1] at hb
        have : (if j = x then 1 else 0) = cfg.backs x i := by
          unfold SimCfg.backs
          rw [hb]
          simp
        omega
  · rw [← Except.ok.inj h]; exact ⟨H.mono _ _ _ (by omega) i1, hq⟩

theorem heatSrcLoop (H : CountInduction m fuel dr amb cfg x Inv Q) : ∀ {is : List (Fin k)} {c : ℕ}
    {s s' : Sim n k} {minutes : ℚ}, Inv c s → Q minutes →
    Sim.heatSrcLoop m fuel dr amb is s minutes = .ok s' →
    Inv (c + (is.map fun i => (if i = x then 1 else 0) + 2 * cfg.backs x i).sum) s' := by
  intro is
  induction is with
  | nil => intro c s s' minutes hi _ h; rw [← Except.ok.inj h]; simpa using hi
  | cons i is ih =>
    intro c s s' minutes hi hq h
    rw [Sim.heatSrcLoop, bind_ok_iff] at h
    obtain ⟨r, hr, h⟩ := h
    obtain ⟨i1, q1⟩ := H.heatBody hi hq hr
    have := ih i1 q1 h
    rw [List.map_cons, List.sum_cons, ← Nat.add_assoc]
    exact this

theorem control (H : CountInduction m fuel dr amb cfg x Inv Q) {s s' : Sim n k}
    (hi : Inv 0 s) (hq : Q cfg.minutesPerStep) (h : Sim.control m fuel dr amb s = .ok s') :
    Inv (1 + 2 * (Finset.univ.filter fun i => (cfg.src i).backup = some x).card) s' := by
  unfold Sim.control at h
  rw [bind_ok_iff] at h
  obtain ⟨s1, h1, h⟩ := h
  have i1 : Inv (1 + 2 * (Finset.univ.filter fun i => (cfg.src i).backup = some x).card) s1 := by
    unfold Sim.normalControl at h1
    split_ifs at h1
    · rw [← Except.ok.inj h1]
      exact H.mono _ _ _ (by omega) (H.ctrl _ _ _ (CtrlEq.turnAllOff s) hi)
    · rw [bind_ok_iff] at h1
      obtain ⟨a, ha, h1⟩ := h1
      rw [bind_ok_iff] at h1
      obtain ⟨b, hb, h1⟩ := h1
      have ib := H.ctrl _ _ _ ((CtrlEq.topOff ha).trans (CtrlEq.chooseLoop hb)) hi
      rw [H.fixed _ s hi] at h1
      refine H.mono _ _ _ (le_of_eq ?_) (H.heatSrcLoop ib hq h1)
      rw [← List.ofFn_eq_map, List.sum_ofFn, Finset.sum_add_distrib, ← Finset.mul_sum]
      unfold SimCfg.backs
      rw [Finset.sum_ite_eq' Finset.univ x, if_pos (Finset.mem_univ x), Finset.card_filter]
      omega
  rw [← Except.ok.inj h]
  split_ifs
  · exact H.ctrl _ _ _ (CtrlEq.heating s1 false) i1
  · exact i1

end CountInduction

end HPWH
