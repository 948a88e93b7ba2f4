import Verif.Spec.Reasons
import Verif.Lemmas.StepFrame
import Verif.Props.TopOff
import Verif.Props.Elements

/-! # C91: heat sources run only for a reason -/

namespace HPWH

open Spec

variable {n k : ℕ}

/-! ## Closed sets of heat sources -/

/-- With a heat source, its companion, backup and follower are among those in `R`. -/
structure Closed (cfg : SimCfg n k) (R : Fin k → Prop) : Prop where
  companion : ∀ i j, R j → (cfg.src j).companion = some i → R i
  backup : ∀ i j, R j → (cfg.src j).backup = some i → R i
  follower : ∀ i j, R j → (cfg.src j).followedBy = some i → R i

/-- Only heat sources in `R` are on. -/
def OnlyOn (R : Fin k → Prop) (s : Sim n k) : Prop := ∀ i, (s.st i).isOn = true → R i

/-- Heat sources outside `R` have neither run nor used or delivered any energy. -/
def OnlyRun (R : Fin k → Prop) (s : Sim n k) : Prop :=
  ∀ i, ¬ R i → (s.st i).runtime_min = 0 ∧ (s.st i).energyInput_kWh = 0 ∧ (s.st i).energyOutput_kWh = 0

theorem OnlyRun.ctrl {R : Fin k → Prop} {s s' : Sim n k} (h : OnlyRun R s) (c : CtrlEq s s') : OnlyRun R s' :=
  fun i hi => by rw [c.runtime, c.input, c.output]; exact h i hi

theorem OnlyOn.setSt {R : Fin k → Prop} {s : Sim n k} (h : OnlyOn R s) {i : Fin k} {x : SourceState}
    (hx : x.isOn = true → R i) : OnlyOn R (s.setSt i x) := by
  intro j hj
  unfold Sim.setSt at hj
  by_cases hji : j = i
  · subst hji
    exact hx (by simpa using hj)
  · exact h j (by simpa [hji] using hj)

theorem OnlyOn.disengage {R : Fin k → Prop} {s : Sim n k} (h : OnlyOn R s) (i : Fin k) : OnlyOn R (s.disengage i) :=
  h.setSt (fun hx => by cases hx)

theorem OnlyOn.turnAllOff {R : Fin k → Prop} (s : Sim n k) : OnlyOn R s.turnAllOff := fun i hi => by cases hi

theorem OnlyOn.engageAux {R : Fin k → Prop} {dr : DR} : ∀ (fuel : ℕ) {s s' : Sim n k} {i : Fin k}, Closed s.cfg R →
    OnlyOn R s → R i → Sim.engageAux dr fuel s i = .ok s' → OnlyOn R s' ∧ s'.isHeating = true := by
  intro fuel
  induction fuel with
  | zero => intro s s' i _ _ _ h; cases h
  | succ fuel ih =>
    intro s s' i hc ho hi h
    rw [Sim.engageAux] at h
    have o1 : OnlyOn R { s.setSt i { s.st i with isOn := true } with isHeating := true } :=
      ho.setSt (x := { s.st i with isOn := true }) fun _ => hi
    split at h
    · cases h; exact ⟨o1, rfl⟩
    · rename_i j hj
      obtain ⟨off, -, h⟩ := (bind_ok_iff _ _ _).mp h
      split_ifs at h
      · exact ih (s := { s.setSt i { s.st i with isOn := true } with isHeating := true }) hc o1
          (hc.companion j i hi hj) h
      · cases h; exact ⟨o1, rfl⟩

theorem OnlyOn.engage {R : Fin k → Prop} {dr : DR} {s s' : Sim n k} {i : Fin k} (hc : Closed s.cfg R)
    (ho : OnlyOn R s) (hi : R i) (h : s.engage dr i = .ok s') : OnlyOn R s' ∧ s'.isHeating = true :=
  OnlyOn.engageAux _ hc ho hi h

/-! ## Choosing -/

theorem OnlyOn.handOver {R : Fin k → Prop} {dr : DR} {s s' : Sim n k} {i : Fin k} (hc : Closed s.cfg R)
    (ho : OnlyOn R s) (h : s.handOver dr i = .ok s') : OnlyOn R s' := by
  unfold Sim.handOver at h
  obtain ⟨off, hoff, h⟩ := (bind_ok_iff _ _ _).mp h
  split_ifs at h with h1
  · have hi : R i := by
      apply ho
      by_contra hn
      unfold Sim.engagedShutsOff at hoff
      rw [if_neg hn] at hoff
      cases hoff
      cases h1
    split at h
    · cases h; exact ho.disengage i
    · rename_i b hb
      obtain ⟨boff, -, h⟩ := (bind_ok_iff _ _ _).mp h
      split_ifs at h
      · cases h; exact ho.disengage i
      · exact (OnlyOn.engage (s := s.disengage i) hc (ho.disengage i) (hc.backup b i hi hb) h).1
  · cases h; exact ho

theorem handOver_heating {dr : DR} {s s' : Sim n k} {i : Fin k} (hh : s.isHeating = true)
    (h : s.handOver dr i = .ok s') : s'.isHeating = true := by
  have eng : ∀ (fuel : ℕ) (a a' : Sim n k) (b : Fin k), Sim.engageAux dr fuel a b = .ok a' → a'.isHeating = true :=
    fun fuel a a' b hab => (OnlyOn.engageAux (R := fun _ => True) fuel ⟨fun _ _ _ _ => trivial, fun _ _ _ _ => trivial,
      fun _ _ _ _ => trivial⟩ (fun _ _ => trivial) trivial hab).2
  unfold Sim.handOver at h
  obtain ⟨off, -, h⟩ := (bind_ok_iff _ _ _).mp h
  split_ifs at h
  · split at h
    · cases h; exact hh
    · obtain ⟨boff, -, h⟩ := (bind_ok_iff _ _ _).mp h
      split_ifs at h
      · cases h; exact hh
      · exact eng _ _ _ _ h
  · cases h; exact hh

theorem calls_iff {s : Sim n k} {p : Plant n} {i : Fin k} {want : Bool} (h : (s.cfg.src i).shouldHeat p = .ok want) :
    want = true ↔ Calls s p i := (C28_decisions (s.cfg.src i) p want h).1

/-- What the choice of a step relies on: `s` is the state at its start, `pre` are the heat sources looked at. -/
structure Choosing (R : Fin k → Prop) (s : Sim n k) (dr : DR) (pre : List (Fin k)) (a : Sim n k) : Prop where
  same : CtrlEq s a
  on : OnlyOn R a
  idle : a.isHeating = false → ∀ j ∈ pre, ¬ Calls s s.toPlant j

theorem chooseBody_reason {R : Fin k → Prop} {s a : Sim n k} {dr : DR} {pre : List (Fin k)} {i : Fin k}
    (hc : Closed s.cfg R)
    (hfirst : (∀ j ∈ pre, ¬ Calls s s.toPlant j) → a.isHeating = false → Calls s s.toPlant i → R i)
    (hvip : (s.cfg.src i).isVIP = true → Calls s s.toPlant i → R i)
    (hstand : ∀ j, (s.cfg.src i).isVIP = true → Calls s s.toPlant i →
      shouldDRLockOut (s.cfg.src i).kind dr = true → s.cfg.compressorIndex = some j → R j)
    (inv : Choosing R s dr pre a) {r : Sim n k × Bool} (h : a.chooseBody dr i = .ok r) :
    Choosing R s dr (pre ++ [i]) r.1 ∧ (a.isHeating = true → r.1.isHeating = true) := by
  have hp := inv.same.plant
  have hcfg := inv.same.cfg
  have hca : Closed a.cfg R := by rw [hcfg]; exact hc
  have hsame : CtrlEq s r.1 := inv.same.trans (CtrlEq.chooseBody h)
  unfold Sim.chooseBody at h
  by_cases hh : a.isHeating = true
  · rw [if_pos hh] at h
    obtain ⟨a1, h1, h⟩ := (bind_ok_iff _ _ _).mp h
    have o1 := OnlyOn.handOver hca inv.on h1
    have hh1 := handOver_heating hh h1
    have c1 := CtrlEq.handOver h1
    have hc1 : Closed a1.cfg R := by rw [c1.cfg]; exact hca
    have done : ∀ b : Sim n k, CtrlEq s b → OnlyOn R b → b.isHeating = true →
        Choosing R s dr (pre ++ [i]) b ∧ (a.isHeating = true → b.isHeating = true) := fun b hs ho hb =>
      ⟨⟨hs, ho, fun hf => by rw [hb] at hf; cases hf⟩, fun _ => hb⟩
    by_cases hv : (a.cfg.src i).isVIP = true
    · rw [if_pos hv] at h
      obtain ⟨want, hw, h⟩ := (bind_ok_iff _ _ _).mp h
      rw [c1.plant, hp, hcfg] at hw
      have hcall := calls_iff hw
      rw [hcfg] at hv
      split_ifs at h with hwant hdr
      · split at h
        · rename_i j hj
          obtain ⟨a2, h2, h⟩ := (bind_ok_iff _ _ _).mp h
          cases h
          obtain ⟨o2, hb2⟩ := OnlyOn.engage hc1 o1
            (hstand j hv (hcall.mp hwant) (by rw [← hcfg]; exact hdr) (by rw [← hcfg]; exact hj)) h2
          exact done _ hsame o2 hb2
        · cases h; exact done _ hsame o1 hh1
      · obtain ⟨a2, h2, h⟩ := (bind_ok_iff _ _ _).mp h
        cases h
        obtain ⟨o2, hb2⟩ := OnlyOn.engage (s := a1.turnAllOff) hc1 (OnlyOn.turnAllOff a1) (hvip hv (hcall.mp hwant)) h2
        exact done _ hsame o2 hb2
      · cases h; exact done _ hsame o1 hh1
    · rw [if_neg hv] at h
      cases h
      exact done _ hsame o1 hh1
  · rw [if_neg hh] at h
    have hf : a.isHeating = false := by simpa using hh
    obtain ⟨want, hw, h⟩ := (bind_ok_iff _ _ _).mp h
    rw [hp, hcfg] at hw
    have hcall := calls_iff hw
    split_ifs at h with hwant
    · obtain ⟨a1, h1, h⟩ := (bind_ok_iff _ _ _).mp h
      cases h
      obtain ⟨o2, hb2⟩ := OnlyOn.engage hca inv.on (hfirst (inv.idle hf) hf (hcall.mp hwant)) h1
      exact ⟨⟨hsame, o2, fun hf => by rw [hb2] at hf; cases hf⟩, fun _ => hb2⟩
    · cases h
      refine ⟨⟨hsame, inv.on, fun _ j hj => ?_⟩, id⟩
      rcases List.mem_append.mp hj with hj | hj
      · exact inv.idle hf j hj
      · rw [List.mem_singleton.mp hj]
        exact fun hc => hwant (hcall.mpr hc)

theorem chooseLoop_reason {R : Fin k → Prop} {s : Sim n k} {dr : DR} (hc : Closed s.cfg R)
    (hfirst : ∀ i, s.isHeating = false → (∀ j < i, ¬ Calls s s.toPlant j) → Calls s s.toPlant i → R i)
    (hvip : ∀ i, (s.cfg.src i).isVIP = true → Calls s s.toPlant i → R i)
    (hstand : ∀ i j, (s.cfg.src i).isVIP = true → Calls s s.toPlant i →
      shouldDRLockOut (s.cfg.src i).kind dr = true → s.cfg.compressorIndex = some j → R j) :
    ∀ (is pre : List (Fin k)) (a b : Sim n k), pre ++ is = List.finRange k → Choosing R s dr pre a →
      (s.isHeating = true → a.isHeating = true) → a.chooseLoop dr is = .ok b → OnlyOn R b
  | [], pre, a, b, _, inv, _, h => by cases h; exact inv.on
  | i :: is, pre, a, b, e, inv, hh, h => by
    rw [Sim.chooseLoop] at h
    obtain ⟨r, h1, h⟩ := (bind_ok_iff _ _ _).mp h
    have hpre : ∀ j < i, j ∈ pre := by
      intro j hj
      have hm : j ∈ pre ++ i :: is := by rw [e]; exact List.mem_finRange j
      rcases List.mem_append.mp hm with hm | hm
      · exact hm
      · have hs : (pre ++ i :: is).Pairwise (· < ·) := by rw [e]; exact List.pairwise_lt_finRange k
        have := (List.pairwise_append.mp hs).2.1
        rcases List.mem_cons.mp hm with rfl | hm
        · exact absurd hj (lt_irrefl _)
        · exact absurd ((List.pairwise_cons.mp this).1 j hm) (not_lt.mpr hj.le)
    obtain ⟨c1, c2⟩ := chooseBody_reason (i := i) hc
      (fun hn hf hcall => hfirst i (by
        cases hs : s.isHeating with
        | false => rfl
        | true => rw [hh hs] at hf; cases hf) (fun j hj => hn j (hpre j hj)) hcall)
      (hvip i) (hstand i) inv h1
    split_ifs at h
    · cases h; exact c1.on
    · exact chooseLoop_reason hc hfirst hvip hstand is (pre ++ [i]) r.1 b (by simp [e]) c1 (fun hs => c2 (hh hs)) h

/-! ## Heating -/

theorem OnlyOn.lock {R : Fin k → Prop} {s : Sim n k} {i : Fin k} {c : CondCfg} {amb : ℚ} {x : SourceState}
    (ho : OnlyOn R s) (h : toLockOrUnlock (s.cfg.src i) c (s.st i) s.toPlant amb = .ok x) : OnlyOn R (s.setSt i x) := by
  rw [CtrlEq.toLockOrUnlock_eq h]
  exact ho.setSt fun hx => ho i hx

theorem OnlyOn.applyLocks {R : Fin k → Prop} {dr : DR} {amb : ℚ} {s s' : Sim n k} {i : Fin k} (ho : OnlyOn R s)
    (h : s.applyLocks dr amb i = .ok s') : OnlyOn R s' := by
  unfold Sim.applyLocks at h
  obtain ⟨s1, h1, h⟩ := (bind_ok_iff _ _ _).mp h
  have o1 : OnlyOn R s1 := by
    unfold Sim.lockUnlock at h1
    split_ifs at h1
    · cases h1; exact ho.setSt fun hx => ho i hx
    · split at h1
      · obtain ⟨x, hx, h1⟩ := (bind_ok_iff _ _ _).mp h1
        cases h1; exact ho.lock hx
      · cases h1; exact ho.setSt fun hx => ho i hx
  split_ifs at h
  · cases h; exact o1.disengage i
  · cases h; exact o1

theorem OnlyOn.pickSource {R : Fin k → Prop} {dr : DR} {amb : ℚ} {s : Sim n k} {i : Fin k}
    {r : Sim n k × Option (Fin k)} (ho : OnlyOn R s) (h : s.pickSource dr amb i = .ok r) : OnlyOn R r.1 := by
  unfold Sim.pickSource at h
  split_ifs at h
  · split at h
    · cases h; exact ho
    · obtain ⟨q, hq, h⟩ := (bind_ok_iff _ _ _).mp h
      have oq : OnlyOn R q.1 := by
        unfold Sim.backupBarred at hq
        split at hq
        · obtain ⟨x, hx, hq⟩ := (bind_ok_iff _ _ _).mp hq
          cases hq; exact ho.lock hx
        · split at hq
          · cases hq; exact ho
          · cases hq; exact ho
      split_ifs at h
      all_goals cases h; exact oq
  · cases h; exact ho

theorem addHeatParent_reason {R : Fin k → Prop} {m : Libm} {fuel : ℕ} {s s' : Sim n k} {j : Fin k} {amb minutes : ℚ}
    (ho : OnlyOn R s) (hr : OnlyRun R s) (hj : R j) (h : s.addHeatParent m fuel j amb minutes = .ok s') :
    OnlyOn R s' ∧ OnlyRun R s' ∧ s'.cfg = s.cfg := by
  have key : ∀ (a a' : Sim n k), a.st = s.st → a.addHeat m fuel j amb minutes = .ok a' → OnlyOn R a' ∧ OnlyRun R a' := by
    intro a a' e ha
    obtain ⟨hk, e2⟩ := addHeat_spec ha
    obtain ⟨-, f1, -⟩ := addHeatKind_frame hk
    have other : ∀ i, i ≠ j → a'.st i = s.st i := fun i hi => by
      rw [e2, ← e]
      exact Function.update_of_ne hi _ _
    refine ⟨fun i hi => ?_, fun i hi => ?_⟩
    · by_cases hij : i = j
      · rw [hij]; exact hj
      · exact ho i (by rw [← other i hij]; exact hi)
    · have hij : i ≠ j := fun e => hi (e ▸ hj)
      rw [other i hij]
      exact hr i hi
  have hcfg := addHeatParent_cfg h
  rcases addHeatParent_cases h with h | ⟨c, s2, -, -, -, -, h2, ⟨-, e⟩ | ⟨-, e⟩⟩
  · exact ⟨(key s s' rfl h).1, (key s s' rfl h).2, hcfg⟩
  · obtain ⟨k1, k2⟩ := key _ s2 (by rfl) h2
    subst e
    exact ⟨k1, k2, hcfg⟩
  · obtain ⟨k1, k2⟩ := key _ s2 (by rfl) h2
    subst e
    exact ⟨k1, k2, hcfg⟩

theorem runBackup_reason {R : Fin k → Prop} {m : Libm} {fuel : ℕ} {dr : DR} {amb : ℚ} {s s' : Sim n k} {b : Fin k}
    {minutes : ℚ} (hc : Closed s.cfg R) (ho : OnlyOn R s) (hr : OnlyRun R s) (hb : R b)
    (h : s.runBackup m fuel dr amb b minutes = .ok s') : OnlyOn R s' ∧ OnlyRun R s' ∧ s'.cfg = s.cfg := by
  unfold Sim.runBackup at h
  obtain ⟨q, hq, h⟩ := (bind_ok_iff _ _ _).mp h
  have cq := CtrlEq.backupFree hq
  have oq : OnlyOn R q.1 := by
    unfold Sim.backupFree at hq
    split at hq
    · obtain ⟨x, hx, hq⟩ := (bind_ok_iff _ _ _).mp hq
      cases hq; exact ho.lock hx
    · cases hq; exact ho
  split_ifs at h
  · obtain ⟨s1, h1, h⟩ := (bind_ok_iff _ _ _).mp h
    have c1 := CtrlEq.engage h1
    have o1 := (OnlyOn.engage (by rw [cq.cfg]; exact hc) oq hb h1).1
    have r1 := (hr.ctrl cq).ctrl c1
    split_ifs at h
    · obtain ⟨k1, k2, k3⟩ := addHeatParent_reason o1 r1 hb h
      exact ⟨k1, k2, k3.trans (c1.cfg.trans cq.cfg)⟩
    · cases h; exact ⟨o1, r1, c1.cfg.trans cq.cfg⟩
  · cases h; exact ⟨oq, hr.ctrl cq, cq.cfg⟩

theorem afterEarly_reason {R : Fin k → Prop} {m : Libm} {fuel : ℕ} {dr : DR} {amb : ℚ} {s s' : Sim n k} {i : Fin k}
    {minutes : ℚ} (hc : Closed s.cfg R) (ho : OnlyOn R s) (hr : OnlyRun R s) (hi : R i)
    (h : s.afterEarly m fuel dr amb i minutes = .ok s') : OnlyOn R s' ∧ OnlyRun R s' ∧ s'.cfg = s.cfg := by
  unfold Sim.afterEarly at h
  have o1 := ho.disengage i
  have r1 := hr.ctrl (CtrlEq.disengage s i)
  simp only at h
  obtain ⟨fo, hfo, h⟩ := (bind_ok_iff _ _ _).mp h
  split at h
  · rename_i f
    have hf : R f := by
      unfold Sim.follower at hfo
      split at hfo
      · cases hfo
      · rename_i g hg
        obtain ⟨off, -, hfo⟩ := (bind_ok_iff _ _ _).mp hfo
        have hfo := Except.ok.inj hfo
        split_ifs at hfo
        rw [← Option.some.inj hfo]
        exact hc.follower g i hi hg
    have c2 := CtrlEq.engage h
    exact ⟨(OnlyOn.engage (s := s.disengage i) hc o1 hf h).1, r1.ctrl c2, c2.cfg⟩
  · obtain ⟨mx, -, h⟩ := (bind_ok_iff _ _ _).mp h
    split at h
    · rename_i b hb
      exact runBackup_reason (s := s.disengage i) hc o1 r1 (hc.backup b i hi hb) h
    · cases h; exact ⟨o1, r1, rfl⟩

theorem heatBody_reason {R : Fin k → Prop} {m : Libm} {fuel : ℕ} {dr : DR} {amb : ℚ} {s : Sim n k} {i : Fin k}
    {minutes : ℚ} {r : Sim n k × ℚ} (hc : Closed s.cfg R) (ho : OnlyOn R s) (hr : OnlyRun R s)
    (h : s.heatBody m fuel dr amb i minutes = .ok r) : OnlyOn R r.1 ∧ OnlyRun R r.1 ∧ r.1.cfg = s.cfg := by
  unfold Sim.heatBody at h
  obtain ⟨s1, h1, h⟩ := (bind_ok_iff _ _ _).mp h
  have c1 := CtrlEq.applyLocks h1
  have o1 := ho.applyLocks h1
  have r1 := hr.ctrl c1
  split_ifs at h with hon
  · have hi : R i := o1 i hon
    obtain ⟨q, hq, h⟩ := (bind_ok_iff _ _ _).mp h
    have c2 := CtrlEq.pickSource hq
    have o2 := o1.pickSource hq
    have r2 := r1.ctrl c2
    have hc2 : Closed q.1.cfg R := by rw [c2.cfg, c1.cfg]; exact hc
    split at h
    · cases h; exact ⟨o2, r2, c2.cfg.trans c1.cfg⟩
    · rename_i j hj
      have hjR : R j := by
        rcases pickSource_cases hq hj with rfl | hb
        · exact hi
        · rw [c1.cfg] at hb
          exact hc.backup j i hi hb
      unfold Sim.runSource at h
      obtain ⟨s2, h2, h⟩ := (bind_ok_iff _ _ _).mp h
      obtain ⟨o3, r3, e3⟩ := addHeatParent_reason o2 r2 hjR h2
      split_ifs at h
      · obtain ⟨s3, h3, h⟩ := (bind_ok_iff _ _ _).mp h
        cases h
        obtain ⟨o4, r4, e4⟩ := afterEarly_reason (by rw [e3]; exact hc2) o3 r3 hi h3
        exact ⟨o4, r4, e4.trans (e3.trans (c2.cfg.trans c1.cfg))⟩
      · cases h
        exact ⟨o3, r3, e3.trans (c2.cfg.trans c1.cfg)⟩
  · cases h; exact ⟨o1, r1, c1.cfg⟩

theorem heatSrcLoop_reason {R : Fin k → Prop} {m : Libm} {fuel : ℕ} {dr : DR} {amb : ℚ} : ∀ (is : List (Fin k))
    (s s' : Sim n k) (minutes : ℚ), Closed s.cfg R → OnlyOn R s → OnlyRun R s →
    s.heatSrcLoop m fuel dr amb is minutes = .ok s' → OnlyOn R s' ∧ OnlyRun R s'
  | [], s, s', _, _, ho, hr, h => by cases h; exact ⟨ho, hr⟩
  | i :: is, s, s', minutes, hc, ho, hr, h => by
    rw [Sim.heatSrcLoop] at h
    obtain ⟨r, h1, h⟩ := (bind_ok_iff _ _ _).mp h
    obtain ⟨a1, a2, a3⟩ := heatBody_reason hc ho hr h1
    exact heatSrcLoop_reason is r.1 s' r.2 (by rw [a3]; exact hc) a1 a2 h

theorem control_reason {R : Fin k → Prop} {m : Libm} {fuel : ℕ} {dr : DR} {amb : ℚ} {s s' : Sim n k}
    (hc : Closed s.cfg R) (hon : OnlyOn R s) (hrun : OnlyRun R s)
    (hfirst : ∀ i, s.isHeating = false → (∀ j < i, ¬ Calls s s.toPlant j) → Calls s s.toPlant i → R i)
    (hvip : ∀ i, (s.cfg.src i).isVIP = true → Calls s s.toPlant i → R i)
    (hstand : ∀ i j, (s.cfg.src i).isVIP = true → Calls s s.toPlant i →
      shouldDRLockOut (s.cfg.src i).kind dr = true → s.cfg.compressorIndex = some j → R j)
    (htop : ∀ i, ToppingOff s dr → s.cfg.compressorIndex = some i ∨ s.cfg.lowestElementIndex = some i → R i)
    (h : s.control m fuel dr amb = .ok s') : OnlyOn R s' ∧ OnlyRun R s' := by
  unfold Sim.control at h
  obtain ⟨s1, h1, h⟩ := (bind_ok_iff _ _ _).mp h
  have key : OnlyOn R s1 ∧ OnlyRun R s1 := by
    unfold Sim.normalControl at h1
    split_ifs at h1
    · cases h1; exact ⟨OnlyOn.turnAllOff s, hrun.ctrl (CtrlEq.turnAllOff s)⟩
    · obtain ⟨a, ha, h1⟩ := (bind_ok_iff _ _ _).mp h1
      obtain ⟨b, hb, h1⟩ := (bind_ok_iff _ _ _).mp h1
      have ca := CtrlEq.topOff ha
      have oa : OnlyOn R a ∧ (s.isHeating = true → a.isHeating = true) := by
        unfold Sim.topOff at ha
        split_ifs at ha with ht
        · have ht' : ToppingOff s dr := by
            simp only [Bool.and_eq_true, Bool.or_eq_true, decide_eq_true_eq] at ht
            exact ht
          obtain ⟨x, hx, ha⟩ := (bind_ok_iff _ _ _).mp ha
          have ox : OnlyOn R x ∧ (s.isHeating = true → x.isHeating = true) := by
            cases hci : s.cfg.compressorIndex with
            | none => rw [hci] at hx; cases hx; exact ⟨hon, id⟩
            | some j =>
              rw [hci] at hx
              obtain ⟨o, q⟩ := OnlyOn.engage hc hon (htop j ht' (.inl hci)) hx
              exact ⟨o, fun _ => q⟩
          have cx : CtrlEq s x := CtrlEq.engageIf hx
          cases hli : s.cfg.lowestElementIndex with
          | none => rw [hli] at ha; cases ha; exact ox
          | some j =>
            rw [hli] at ha
            obtain ⟨o, q⟩ := OnlyOn.engage (by rw [cx.cfg]; exact hc) ox.1 (htop j ht' (.inr hli)) ha
            exact ⟨o, fun _ => q⟩
        · cases ha; exact ⟨hon, id⟩
      have ob := chooseLoop_reason hc hfirst hvip hstand (List.finRange k) [] a b rfl
        ⟨ca, oa.1, fun _ j hj => by cases hj⟩ oa.2 hb
      have cb := CtrlEq.chooseLoop hb
      exact heatSrcLoop_reason _ b s1 _ (by rw [cb.cfg, ca.cfg]; exact hc) ob ((hrun.ctrl ca).ctrl cb) h1
  cases h
  split_ifs
  · exact key
  · exact key

/-! ## Nothing on, and the flag -/

theorem applyLocks_off {dr : DR} {amb : ℚ} {s s' : Sim n k} {i : Fin k} (ho : OnlyOn (fun _ => False) s)
    (h : s.applyLocks dr amb i = .ok s') : (s'.st i).isOn = false := by
  by_contra hc
  exact ho.applyLocks h i (by simpa using hc)

/-- With nothing on, the heating loop changes no more than lock-outs. -/
theorem heatSrcLoop_idle {m : Libm} {fuel : ℕ} {dr : DR} {amb : ℚ} : ∀ (is : List (Fin k)) (s s' : Sim n k) (minutes : ℚ),
    OnlyOn (fun _ => False) s → s.heatSrcLoop m fuel dr amb is minutes = .ok s' →
    CtrlEq s s' ∧ OnlyOn (fun _ => False) s'
  | [], s, s', _, ho, h => by cases h; exact ⟨.refl _, ho⟩
  | i :: is, s, s', minutes, ho, h => by
    rw [Sim.heatSrcLoop] at h
    obtain ⟨r, h1, h⟩ := (bind_ok_iff _ _ _).mp h
    unfold Sim.heatBody at h1
    obtain ⟨s1, h2, h1⟩ := (bind_ok_iff _ _ _).mp h1
    rw [if_neg (by rw [applyLocks_off ho h2]; simp)] at h1
    cases h1
    obtain ⟨c, o⟩ := heatSrcLoop_idle is s1 s' minutes (ho.applyLocks h2) h
    exact ⟨(CtrlEq.applyLocks h2).trans c, o⟩

theorem engage_heating {dr : DR} {s s' : Sim n k} {i : Fin k} (h : s.engage dr i = .ok s') : s'.isHeating = true :=
  (OnlyOn.engage (R := fun _ => True) ⟨fun _ _ _ _ => trivial, fun _ _ _ _ => trivial, fun _ _ _ _ => trivial⟩
    (fun _ _ => trivial) trivial h).2

/-- The simulator knows that it is heating if a heat source is on. -/
def Known (s : Sim n k) : Prop := ∀ i, (s.st i).isOn = true → s.isHeating = true

theorem Known.chooseBody {dr : DR} {s : Sim n k} {i : Fin k} {r : Sim n k × Bool} (hk : Known s)
    (h : s.chooseBody dr i = .ok r) : Known r.1 := by
  unfold Sim.chooseBody at h
  by_cases hh : s.isHeating = true
  · rw [if_pos hh] at h
    obtain ⟨s1, h1, h⟩ := (bind_ok_iff _ _ _).mp h
    have hh1 := handOver_heating hh h1
    by_cases hv : (s.cfg.src i).isVIP = true
    · rw [if_pos hv] at h
      obtain ⟨want, -, h⟩ := (bind_ok_iff _ _ _).mp h
      split_ifs at h
      · split at h
        · obtain ⟨s2, h2, h⟩ := (bind_ok_iff _ _ _).mp h
          cases h; exact fun _ _ => engage_heating h2
        · cases h; exact fun _ _ => hh1
      · obtain ⟨s2, h2, h⟩ := (bind_ok_iff _ _ _).mp h
        cases h; exact fun _ _ => engage_heating h2
      · cases h; exact fun _ _ => hh1
    · rw [if_neg hv] at h
      cases h; exact fun _ _ => hh1
  · rw [if_neg hh] at h
    obtain ⟨want, -, h⟩ := (bind_ok_iff _ _ _).mp h
    split_ifs at h
    · obtain ⟨s1, h1, h⟩ := (bind_ok_iff _ _ _).mp h
      cases h; exact fun _ _ => engage_heating h1
    · cases h; exact hk

theorem Known.chooseLoop {dr : DR} : ∀ (is : List (Fin k)) (s s' : Sim n k), Known s →
    s.chooseLoop dr is = .ok s' → Known s'
  | [], s, s', hk, h => by cases h; exact hk
  | i :: is, s, s', hk, h => by
    rw [Sim.chooseLoop] at h
    obtain ⟨r, h1, h⟩ := (bind_ok_iff _ _ _).mp h
    split_ifs at h
    · cases h; exact hk.chooseBody h1
    · exact Known.chooseLoop is r.1 s' (hk.chooseBody h1) h

theorem Known.topOff {dr : DR} {s s' : Sim n k} (hk : Known s) (h : s.topOff dr = .ok s') : Known s' := by
  have eng : ∀ (o : Option (Fin k)) (a b : Sim n k), Known a → a.engageIf dr o = .ok b → Known b := by
    intro o a b ha hb
    cases o with
    | none => cases hb; exact ha
    | some j => exact fun _ _ => engage_heating hb
  unfold Sim.topOff at h
  split_ifs at h
  · obtain ⟨a, ha, h⟩ := (bind_ok_iff _ _ _).mp h
    exact eng _ _ _ (eng _ _ _ hk ha) h
  · cases h; exact hk

theorem addHeatParent_heating {m : Libm} {fuel : ℕ} {s s' : Sim n k} {j : Fin k} {amb minutes : ℚ}
    (h : s.addHeatParent m fuel j amb minutes = .ok s') : s'.isHeating = s.isHeating := by
  rcases addHeatParent_cases h with h | ⟨c, s2, -, -, -, -, h2, ⟨-, e⟩ | ⟨-, e⟩⟩
  · rw [(addHeat_spec h).2]
  · rw [e, (addHeat_spec h2).2]
  · rw [e, (addHeat_spec h2).2]

theorem heatBody_heating {m : Libm} {fuel : ℕ} {dr : DR} {amb : ℚ} {s : Sim n k} {i : Fin k} {minutes : ℚ}
    {r : Sim n k × ℚ} (hh : s.isHeating = true) (h : s.heatBody m fuel dr amb i minutes = .ok r) :
    r.1.isHeating = true := by
  unfold Sim.heatBody at h
  obtain ⟨s1, h1, h⟩ := (bind_ok_iff _ _ _).mp h
  have hh1 : s1.isHeating = true := by
    unfold Sim.applyLocks at h1
    obtain ⟨s0, h0, h1⟩ := (bind_ok_iff _ _ _).mp h1
    have hh0 : s0.isHeating = true := by
      unfold Sim.lockUnlock at h0
      split_ifs at h0
      · cases h0; exact hh
      · split at h0
        · obtain ⟨x, -, h0⟩ := (bind_ok_iff _ _ _).mp h0
          cases h0; exact hh
        · cases h0; exact hh
    split_ifs at h1
    · cases h1; exact hh0
    · cases h1; exact hh0
  split_ifs at h
  · obtain ⟨q, hq, h⟩ := (bind_ok_iff _ _ _).mp h
    have hhq : q.1.isHeating = true := by
      unfold Sim.pickSource at hq
      split_ifs at hq
      · split at hq
        · cases hq; exact hh1
        · obtain ⟨x, hx, hq⟩ := (bind_ok_iff _ _ _).mp hq
          have hhx : x.1.isHeating = true := by
            unfold Sim.backupBarred at hx
            split at hx
            · obtain ⟨y, -, hx⟩ := (bind_ok_iff _ _ _).mp hx
              cases hx; exact hh1
            · split at hx
              · cases hx; exact hh1
              · cases hx; exact hh1
          split_ifs at hq
          all_goals cases hq; exact hhx
      · cases hq; exact hh1
    split at h
    · cases h; exact hhq
    · unfold Sim.runSource at h
      obtain ⟨s2, h2, h⟩ := (bind_ok_iff _ _ _).mp h
      have hh2 := (addHeatParent_heating h2).trans hhq
      split_ifs at h
      · obtain ⟨s3, h3, h⟩ := (bind_ok_iff _ _ _).mp h
        cases h
        unfold Sim.afterEarly at h3
        simp only at h3
        obtain ⟨fo, -, h3⟩ := (bind_ok_iff _ _ _).mp h3
        split at h3
        · exact engage_heating h3
        · obtain ⟨mx, -, h3⟩ := (bind_ok_iff _ _ _).mp h3
          split at h3
          · unfold Sim.runBackup at h3
            obtain ⟨y, hy, h3⟩ := (bind_ok_iff _ _ _).mp h3
            have hhy : y.1.isHeating = true := by
              unfold Sim.backupFree at hy
              split at hy
              · obtain ⟨z, -, hy⟩ := (bind_ok_iff _ _ _).mp hy
                cases hy; exact hh2
              · cases hy; exact hh2
            split_ifs at h3
            · obtain ⟨z, hz, h3⟩ := (bind_ok_iff _ _ _).mp h3
              split_ifs at h3
              · exact (addHeatParent_heating h3).trans (engage_heating hz)
              · cases h3; exact engage_heating hz
            · cases h3; exact hhy
          · cases h3; exact hh2
      · cases h; exact hh2
  · cases h; exact hh1

theorem heatSrcLoop_heating {m : Libm} {fuel : ℕ} {dr : DR} {amb : ℚ} : ∀ (is : List (Fin k)) (s s' : Sim n k)
    (minutes : ℚ), s.isHeating = true → s.heatSrcLoop m fuel dr amb is minutes = .ok s' → s'.isHeating = true
  | [], s, s', _, hh, h => by cases h; exact hh
  | i :: is, s, s', minutes, hh, h => by
    rw [Sim.heatSrcLoop] at h
    obtain ⟨r, h1, h⟩ := (bind_ok_iff _ _ _).mp h
    exact heatSrcLoop_heating is r.1 s' r.2 (heatBody_heating hh h1) h

/-- After the control of a step the simulator is heating exactly if a heat source is on. -/
theorem control_flag {m : Libm} {fuel : ℕ} {dr : DR} {amb : ℚ} {s s' : Sim n k} (hk : Known s)
    (h : s.control m fuel dr amb = .ok s') : s'.isHeating = true ↔ ∃ i, (s'.st i).isOn = true := by
  unfold Sim.control at h
  obtain ⟨s1, h1, h⟩ := (bind_ok_iff _ _ _).mp h
  have key : Known s1 := by
    unfold Sim.normalControl at h1
    split_ifs at h1
    · cases h1; exact fun i hi => by cases hi
    · obtain ⟨a, ha, h1⟩ := (bind_ok_iff _ _ _).mp h1
      obtain ⟨b, hb, h1⟩ := (bind_ok_iff _ _ _).mp h1
      have kb := Known.chooseLoop _ _ _ (hk.topOff ha) hb
      by_cases hh : b.isHeating = true
      · exact fun _ _ => heatSrcLoop_heating _ _ _ _ hh h1
      · obtain ⟨-, o⟩ := heatSrcLoop_idle _ _ _ _ (fun i hi => hh (kb i hi)) h1
        exact fun i hi => (o i hi).elim
  cases h
  by_cases hall : s1.allOff = true
  · rw [if_pos hall]
    have off : ∀ i, (s1.st i).isOn = false := by simpa [Sim.allOff] using hall
    exact ⟨fun h => (by cases h), fun ⟨i, hi⟩ => by
      change (s1.st i).isOn = true at hi
      rw [off i] at hi; cases hi⟩
  · rw [if_neg hall]
    refine ⟨fun _ => ?_, fun ⟨i, hi⟩ => key i hi⟩
    by_contra hc
    apply hall
    unfold Sim.allOff
    rw [decide_eq_true_eq]
    intro i
    by_contra hi
    exact hc ⟨i, by simpa using hi⟩

/-- With nothing on at the start and no reason for anything to come on, control changes no more than lock-outs. -/
theorem control_idle {m : Libm} {fuel : ℕ} {dr : DR} {amb : ℚ} {s s' : Sim n k} (hoff : ∀ i, (s.st i).isOn = false)
    (hh : s.isHeating = false) (hn : ∀ i, ¬ Calls s s.toPlant i) (ht : ¬ ToppingOff s dr)
    (h : s.control m fuel dr amb = .ok s') : CtrlEq s s' := by
  have hon : OnlyOn (fun _ => False) s := fun i hi => by rw [hoff i] at hi; cases hi
  unfold Sim.control at h
  obtain ⟨s1, h1, h⟩ := (bind_ok_iff _ _ _).mp h
  have key : CtrlEq s s1 := by
    unfold Sim.normalControl at h1
    split_ifs at h1
    · cases h1; exact CtrlEq.turnAllOff s
    · obtain ⟨a, ha, h1⟩ := (bind_ok_iff _ _ _).mp h1
      obtain ⟨b, hb, h1⟩ := (bind_ok_iff _ _ _).mp h1
      have ea : a = s := by
        unfold Sim.topOff at ha
        rw [if_neg (by simpa [ToppingOff] using ht)] at ha
        cases ha; rfl
      subst ea
      have ob := chooseLoop_reason (R := fun _ => False) ⟨fun _ _ h => h.elim, fun _ _ h => h.elim, fun _ _ h => h.elim⟩
        (fun i _ _ hc => hn i hc) (fun i _ hc => hn i hc) (fun i _ _ hc => (hn i hc).elim) (List.finRange k) [] a b rfl
        ⟨.refl _, hon, fun _ j hj => by cases hj⟩ id hb
      exact (CtrlEq.chooseLoop hb).trans (heatSrcLoop_idle _ _ _ _ ob h1).1
  cases h
  split_ifs
  · exact key.trans (CtrlEq.heating _ _)
  · exact key

/-! ## Steps -/

/-- **C91.** A heat source that is on after a step, or that ran, used energy beyond its standby power or delivered heat
in it, has a reason. -/
theorem C91_reason (m : Libm) (fuel : ℕ) (s s' : Sim n k) (u : Sim.StepInput)
    (h : Sim.runOneStep m fuel s u = .ok s') :
    ∃ p, AfterDraw s u p ∧ ∀ i, ¬ HasReason s u.dr p i →
      (s'.st i).isOn = false ∧ (s'.st i).runtime_min = 0 ∧ (s'.st i).energyOutput_kWh = 0 ∧
      (s'.st i).energyInput_kWh = match (s.cfg.src i).kind with
        | .condenser c => c.standbyPower_kW * (s.cfg.minutesPerStep / 60)
        | .resistance _ => 0 := by
  obtain ⟨-, s0, s1, s2, hs, hctl, h2, rfl⟩ := runOneStep_ok h
  refine ⟨s0.toPlant, hs.plant, ?_⟩
  have hcalls : ∀ i, Calls s0 s0.toPlant i ↔ Calls s s0.toPlant i := fun i => by unfold Calls; rw [hs.cfg]
  obtain ⟨o1, r1⟩ := control_reason (R := HasReason s u.dr s0.toPlant)
    ⟨fun i j hj e => .companion i j hj (by rw [← hs.cfg]; exact e), fun i j hj e => .backup i j hj (by rw [← hs.cfg]; exact e),
      fun i j hj e => .follower i j hj (by rw [← hs.cfg]; exact e)⟩
    (fun i hi => .wasOn i (by rw [hs.st] at hi; exact hi))
    (fun i _ => by rw [hs.st]; exact ⟨rfl, rfl, rfl⟩)
    (fun i hh hj hi => .firstCaller i (by rw [← hs.isHeating]; exact hh) ((hcalls i).mp hi)
      fun j hji hc => hj j hji ((hcalls j).mpr hc))
    (fun i hv hi => .priority i (by rw [← hs.cfg]; exact hv) ((hcalls i).mp hi))
    (fun i j hv hi hd hj => .standIn j i (by rw [← hs.cfg]; exact hv) ((hcalls i).mp hi) (by rw [← hs.cfg]; exact hd)
      (by rw [← hs.cfg]; exact hj))
    (fun i ht hi => .toppingOff i ⟨ht.1, by rw [← hs.timerTOT]; exact ht.2⟩ (by rw [← hs.cfg]; exact hi)) hctl
  obtain ⟨x1, x2, -⟩ := extraStep_frame h2
  obtain ⟨-, -, -, -, -, g6, g7, -⟩ := finish_facts s2 u.tankAmbient u.dr
  have hcfg : s2.cfg = s.cfg := by rw [x1, (control_frame hctl).cfg, hs.cfg]
  intro i hi
  obtain ⟨q1, q2, q3⟩ := r1 i hi
  refine ⟨?_, ?_, ?_, ?_⟩
  · rw [(g6 i).2.2.1, x2]
    by_contra hc
    exact hi (o1 i (by simpa using hc))
  · rw [(g6 i).1, x2, q1]
  · rw [(g6 i).2.1, x2, q3]
  · rw [g7 i, hcfg, x2, q1, q2]
    cases (s.cfg.src i).kind <;> simp

/-- **C91.** A heater at rest stays at rest: if nothing is on before a step and, after the draw, no heat source asks for
heat and the tank is not to be topped off, then nothing comes on or runs, and the water is what draw and losses made
of it. -/
theorem C91_rest (m : Libm) (fuel : ℕ) (s s' : Sim n k) (u : Sim.StepInput)
    (hoff : ∀ i, (s.st i).isOn = false) (hh : s.isHeating = false) (hx : u.extraHeat_W = [])
    (hn : ∀ p, AfterDraw s u p → ∀ i, ¬ Calls s p i) (ht : ¬ ToppingOff s u.dr)
    (h : Sim.runOneStep m fuel s u = .ok s') :
    s.DrawnTank u s'.tank ∧ s'.isHeating = false ∧ ∀ i, (s'.st i).isOn = false ∧ (s'.st i).runtime_min = 0 ∧
      (s'.st i).energyOutput_kWh = 0 ∧
      (s'.st i).energyInput_kWh = match (s.cfg.src i).kind with
        | .condenser c => c.standbyPower_kW * (s.cfg.minutesPerStep / 60)
        | .resistance _ => 0 := by
  obtain ⟨p, hp, hq⟩ := C91_reason m fuel s s' u h
  have none : ∀ i, ¬ HasReason s u.dr p i := by
    intro i hi
    induction hi with
    | wasOn i hi => rw [hoff i] at hi; cases hi
    | firstCaller i _ hc _ => exact hn p hp i hc
    | priority i _ hc => exact hn p hp i hc
    | standIn _ v _ hc => exact hn p hp v hc
    | toppingOff _ h => exact ht h
    | companion _ _ _ _ ih => exact ih
    | backup _ _ _ _ ih => exact ih
    | follower _ _ _ _ ih => exact ih
  have hq' := fun i => hq i (none i)
  obtain ⟨-, s0, s1, s2, hs, hctl, h2, rfl⟩ := runOneStep_ok h
  have hcalls : ∀ i, ¬ Calls s0 s0.toPlant i := fun i hc => hn s0.toPlant hs.plant i (by
    unfold Calls at hc ⊢; rw [← hs.cfg]; exact hc)
  have e2 := (extraStep_frame h2).2.2.2.2.2.2.2 hx
  subst e2
  obtain ⟨g1, -, g3, -, -, g6, -, -⟩ := finish_facts s2 u.tankAmbient u.dr
  have hoff0 : ∀ i, (s0.st i).isOn = false := fun i => by rw [hs.st]; exact hoff i
  have c := control_idle hoff0 (by rw [hs.isHeating]; exact hh) hcalls
    (fun ht' => ht ⟨ht'.1, by rw [← hs.timerTOT]; exact ht'.2⟩) hctl
  refine ⟨?_, ?_, hq'⟩
  · have hd := hs.drawn
    rw [← c.plant] at hd
    rw [show (((s2.trackLocation u.tankAmbient).settleOutputs).updateTimer u.dr).tank = s2.tank from
      congrArg Plant.tank g1]
    exact hd
  · rw [g3]
    have fl := control_flag (fun i hi => by rw [hoff0 i] at hi; cases hi) hctl
    cases hb : s2.isHeating with
    | false => rfl
    | true =>
      obtain ⟨i, hi⟩ := fl.mp hb
      have := (hq' i).1
      rw [(g6 i).2.2.1, hi] at this
      cases this

/-- **C91.** After every step the simulator says it is heating exactly if a heat source is on, provided it knew of the
heat sources that were on before. -/
theorem C91_flag (m : Libm) (fuel : ℕ) (s s' : Sim n k) (u : Sim.StepInput)
    (hk : ∀ i, (s.st i).isOn = true → s.isHeating = true) (h : Sim.runOneStep m fuel s u = .ok s') :
    s'.isHeating = true ↔ ∃ i, (s'.st i).isOn = true := by
  obtain ⟨-, s0, s1, s2, hs, hctl, h2, rfl⟩ := runOneStep_ok h
  obtain ⟨-, x2, -, -, -, x6, -⟩ := extraStep_frame h2
  obtain ⟨-, -, g3, -, -, g6, -, -⟩ := finish_facts s2 u.tankAmbient u.dr
  rw [g3, x6, control_flag (fun i hi => by rw [hs.isHeating]; exact hk i (by rw [hs.st] at hi; exact hi)) hctl]
  simp only [(g6 _).2.2.1, x2]

/-- **C91.** Over any sequence of steps from rest, whatever the inputs, the simulator says it is heating exactly if a heat
source is on. -/
theorem C91_flag_history (m : Libm) (fuel N : ℕ) (s : ℕ → Sim n k) (u : ℕ → Sim.StepInput)
    (h : Sim.History m fuel N s u) (h0 : ∀ i, ((s 0).st i).isOn = false) (hh : (s 0).isHeating = false) :
    ∀ t ≤ N, ((s t).isHeating = true ↔ ∃ i, ((s t).st i).isOn = true) := by
  intro t
  induction t with
  | zero =>
    intro _
    rw [hh]
    exact ⟨fun h => (by cases h), fun ⟨i, hi⟩ => by rw [h0 i] at hi; cases hi⟩
  | succ t ih =>
    intro ht
    exact C91_flag m fuel _ _ _ (fun i hi => (ih (by omega)).mpr ⟨i, hi⟩) (h t (by omega))

/-- The decisions of all heat sources after the draw of a step. -/
def callsAfterDraw (s : Sim n k) (u : Sim.StepInput) : Res (List Bool) := do
  let t ← ({ s.tank with outletT := 0, standbyLosses_kJ := 0 } : Tank n).updateNodes
    (s.cfg.minutesPerStep / 60) (60 * s.cfg.minutesPerStep) u.draw_L s.inletT (s.tankAirT u) u.inletVol2_L u.inletT2
  let p ← ({ s.resetOutputs.toPlant with tank := t } : Plant n).updateSoC
  (List.finRange k).mapM fun i => (s.cfg.src i).shouldHeat p

theorem not_calls_of_decisions {s : Sim n k} {u : Sim.StepInput} {bs : List Bool} (h : callsAfterDraw s u = .ok bs)
    (hb : ∀ b ∈ bs, b = false) {p : Plant n} (hp : AfterDraw s u p) (i : Fin k) : ¬ Calls s p i := by
  obtain ⟨t, ht, hp⟩ := hp
  unfold Sim.DrawnTank at ht
  unfold callsAfterDraw at h
  rw [ht] at h
  change (({ s.resetOutputs.toPlant with tank := t } : Plant n).updateSoC >>= _) = _ at h
  rw [hp] at h
  change (List.finRange k).mapM _ = _ at h
  have hf := mapM_forall₂ h
  obtain ⟨j, hj, hji⟩ := List.getElem_of_mem (List.mem_finRange i)
  have hlen := hf.length_eq
  have hs := (List.forall₂_iff_get.mp hf).2 j hj (hlen ▸ hj)
  rw [List.get_eq_getElem, List.get_eq_getElem, hji] at hs
  have := (C28_decisions _ _ _ hs).1
  unfold Calls
  rw [← this, hb _ (List.getElem_mem ..)]
  simp

/-- A warm tank at rest meets the hypotheses of `C91_rest`; nothing runs. -/
example : (∀ i, (warmSim.st i).isOn = false) ∧ warmSim.isHeating = false ∧
    (∀ p, AfterDraw warmSim { sampleInput with draw_L := 0, inletVol2_L := 0, extraHeat_W := [] } p →
      ∀ i, ¬ Calls warmSim p i) ∧
    ¬ ToppingOff warmSim sampleInput.dr ∧
    ∃ s', Sim.runOneStep sampleLibm 5 warmSim { sampleInput with draw_L := 0, inletVol2_L := 0, extraHeat_W := [] } =
      .ok s' ∧ s'.isHeating = false ∧ s'.standbyLosses_kWh ≠ 0 := by
  refine ⟨by decide +kernel, rfl, fun p hp i => ?_, ?_, by decide +kernel⟩
  · exact not_calls_of_decisions (bs := [false, false]) (by decide +kernel) (by decide) hp i
  · unfold ToppingOff
    decide +kernel

/-- In the sample step the compressor comes on as the first caller, and the simulator says it is heating. -/
example : (∀ i, (sampleSim.st i).isOn = true → sampleSim.isHeating = true) ∧
    callsAfterDraw sampleSim sampleInput = .ok [true, false] ∧
    ∃ s', Sim.runOneStep sampleLibm 5 sampleSim sampleInput = .ok s' ∧ (s'.st 0).isOn = true ∧
      s'.isHeating = true ∧ (s'.st 1).isOn = false := by
  decide +kernel

end HPWH
