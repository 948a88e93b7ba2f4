import Verif.Spec.Backup
import Verif.Props.Alone
import Verif.Props.PumpRecovery
import Verif.Props.Reasons

/-! # C109: an element stands in for the heat pump whose backup it is -/

namespace HPWH

open Spec
open _root_.HPWH.Units

variable {n k : ℕ}

theorem Spec.PumpWithBackup.of_cfg {s s' : Sim n k} {i b : Fin k} {w : ℚ} (h : PumpWithBackup s i b w)
    (e : s'.cfg = s.cfg) : PumpWithBackup s' i b w := by
  obtain ⟨h1, h2, h3, h4, h5, h6, h7⟩ := h
  constructor <;> (try rw [e]) <;> assumption

theorem Spec.PumpWithBackup.ne {s : Sim n k} {i b : Fin k} {w : ℚ} (h : PumpWithBackup s i b w) : b ≠ i := by
  rintro rfl
  obtain ⟨c, hc⟩ := h.pump
  rw [h.element] at hc
  cases hc

/-! ## Choosing -/

theorem handOver_one {dr : DR} {s s1 : Sim n k} {i b j : Fin k} {w : ℚ} (hp : PumpWithBackup s i b w) (h : OneAtMost s)
    (h1 : s.handOver dr j = .ok s1) : OneAtMost s1 := by
  unfold Sim.handOver at h1
  obtain ⟨off, ho, h1⟩ := (bind_ok_iff _ _ _).mp h1
  cases off with
  | false => cases h1; exact h
  | true =>
    have hj : (s.st j).isOn = true := by
      unfold Sim.engagedShutsOff at ho
      by_contra hc
      rw [if_neg hc] at ho
      cases ho
    rw [if_pos rfl] at h1
    by_cases e : j = i
    · subst e
      rw [hp.backup] at h1
      obtain ⟨off2, -, h1⟩ := (bind_ok_iff _ _ _).mp h1
      cases off2 with
      | true => cases h1; exact h.disengage j
      | false =>
        rw [if_neg (by simp), engage_alone (s := s.disengage j) (hp.noCompanion b)] at h1
        cases h1
        refine OneAtMost.switched fun l hl => ?_
        obtain ⟨a1, a2⟩ := disengage_on.mp hl
        exact absurd (h.alone l j a2 hj) a1
    · rw [hp.noBackup j e] at h1
      cases h1; exact h.disengage j

theorem chooseLoop_one {dr : DR} {i b : Fin k} {w : ℚ} : ∀ (is : List (Fin k)) (s s' : Sim n k), PumpWithBackup s i b w →
    OneAtMost s → s.chooseLoop dr is = .ok s' → OneAtMost s'
  | [], s, s', _, h, h1 => by cases h1; exact h
  | j :: is, s, s', hp, h, h1 => by
    rw [Sim.chooseLoop] at h1
    obtain ⟨r, h2, h1⟩ := (bind_ok_iff _ _ _).mp h1
    have a : OneAtMost r.1 := by
      unfold Sim.chooseBody at h2
      by_cases hh : s.isHeating = true
      · rw [if_pos hh] at h2
        obtain ⟨s1, h3, h2⟩ := (bind_ok_iff _ _ _).mp h2
        rw [hp.noPriority.2 j] at h2
        cases h2
        exact handOver_one hp h h3
      · rw [if_neg hh] at h2
        obtain ⟨want, -, h2⟩ := (bind_ok_iff _ _ _).mp h2
        cases want with
        | false => cases h2; exact h
        | true =>
          rw [if_pos rfl, engage_alone (hp.noCompanion j)] at h2
          cases h2
          exact OneAtMost.switched fun l hl => absurd (h.known l hl) hh
    cases hr : r.2 with
    | true => rw [hr] at h1; cases h1; exact a
    | false =>
      rw [hr] at h1
      exact chooseLoop_one is _ s' (hp.of_cfg (CtrlEq.chooseBody h2).cfg) a h1

/-! ## Heating -/

theorem toLockOrUnlock_on {s : SourceCfg n k} {c : CondCfg} {st st' : SourceState} {p : Plant n} {amb : ℚ}
    (h : toLockOrUnlock s c st p amb = .ok st') : ∃ x, st' = { st with lockedOut := x } := by
  unfold toLockOrUnlock at h
  obtain ⟨l, -, h⟩ := (bind_ok_iff _ _ _).mp h
  obtain ⟨v, -, h⟩ := (bind_ok_iff _ _ _).mp h
  rw [← Except.ok.inj h]
  cases l <;> cases v <;> exact ⟨_, rfl⟩

theorem lockUnlock_only {dr : DR} {amb : ℚ} {s s' : Sim n k} {j : Fin k} (h : s.lockUnlock dr amb j = .ok s') :
    ∃ x, s' = s.setSt j { s.st j with lockedOut := x } := by
  unfold Sim.lockUnlock at h
  split_ifs at h
  · exact ⟨_, (Except.ok.inj h).symm⟩
  · split at h
    · obtain ⟨st, h1, h⟩ := (bind_ok_iff _ _ _).mp h
      obtain ⟨x, rfl⟩ := toLockOrUnlock_on h1
      exact ⟨x, (Except.ok.inj h).symm⟩
    · exact ⟨_, (Except.ok.inj h).symm⟩

/-- Locking out changes the heat source in question only, and of that only the lock-out, unless it has no backup. -/
theorem applyLocks_only {dr : DR} {amb : ℚ} {s s' : Sim n k} {j : Fin k} (h : s.applyLocks dr amb j = .ok s') :
    ∃ x y, s' = s.setSt j { s.st j with lockedOut := x, isOn := y } ∧ (y = true → (s.st j).isOn = true) ∧
      ((s.cfg.src j).backup.isNone = false → y = (s.st j).isOn) := by
  unfold Sim.applyLocks at h
  obtain ⟨s1, h1, h⟩ := (bind_ok_iff _ _ _).mp h
  obtain ⟨x, rfl⟩ := lockUnlock_only h1
  split_ifs at h with hl
  · refine ⟨x, false, ?_, by simp, fun hb => ?_⟩
    · rw [← Except.ok.inj h]
      simp [Sim.disengage, Sim.setSt]
    · rw [hb] at hl
      simp at hl
  · exact ⟨x, (s.st j).isOn, (Except.ok.inj h).symm, id, fun _ => rfl⟩

theorem addHeatKind_switch {m : Libm} {fuel : ℕ} {s : SourceCfg n k} {p : Plant n} {st : SourceState} {amb minutes : ℚ}
    {r : Plant n × SourceState} (h : Sim.addHeatKind m fuel s p st amb minutes = .ok r) :
    r.2.isOn = st.isOn ∧ r.2.lockedOut = st.lockedOut :=
  (addHeatKind_frame (p' := r.1) (st' := r.2) h).2

theorem addHeatParent_only {m : Libm} {fuel : ℕ} {s s' : Sim n k} {j : Fin k} {amb minutes : ℚ}
    (h : s.addHeatParent m fuel j amb minutes = .ok s') :
    (∀ l, l ≠ j → s'.st l = s.st l) ∧ (s'.st j).isOn = (s.st j).isOn ∧ (s'.st j).lockedOut = (s.st j).lockedOut := by
  have key : ∀ {a a' : Sim n k}, a.addHeat m fuel j amb minutes = .ok a' →
      (∀ l, l ≠ j → a'.st l = a.st l) ∧ (a'.st j).isOn = (a.st j).isOn ∧ (a'.st j).lockedOut = (a.st j).lockedOut := by
    intro a a' ha
    unfold Sim.addHeat at ha
    obtain ⟨r, h1, ha⟩ := (bind_ok_iff _ _ _).mp ha
    rw [← Except.ok.inj ha]
    obtain ⟨e1, e2⟩ := addHeatKind_switch h1
    refine ⟨fun l hl => Function.update_of_ne hl _ _, ?_⟩
    simp only [Function.update_self]
    exact ⟨e1, e2⟩
  rcases addHeatParent_cases h with h | ⟨c, s2, -, -, -, -, h2, ⟨-, rfl⟩ | ⟨-, rfl⟩⟩
  · exact key h
  · have := key h2
    exact this
  · have := key h2
    exact this

/-- What the other heat sources must not have changed. -/
def SameUse (s s' : Sim n k) (l : Fin k) : Prop :=
  (s'.st l).isOn = (s.st l).isOn ∧ (s'.st l).runtime_min = (s.st l).runtime_min ∧
    (s'.st l).energyOutput_kWh = (s.st l).energyOutput_kWh

theorem heatBody_off {m : Libm} {fuel : ℕ} {dr : DR} {amb minutes : ℚ} {s : Sim n k} {j : Fin k} {r : Sim n k × ℚ}
    (hoff : (s.st j).isOn = false) (h : Sim.heatBody m fuel dr amb s j minutes = .ok r) :
    r.2 = minutes ∧ (∀ l, SameUse s r.1 l) ∧ ∀ l, l ≠ j → r.1.st l = s.st l := by
  unfold Sim.heatBody at h
  obtain ⟨s1, h1, h⟩ := (bind_ok_iff _ _ _).mp h
  obtain ⟨x, y, rfl, hy, -⟩ := applyLocks_only h1
  have hy' : y = false := by
    cases y with
    | false => rfl
    | true => rw [hy rfl] at hoff; cases hoff
  subst hy'
  rw [if_neg (by simp [Sim.setSt])] at h
  cases h
  refine ⟨rfl, fun l => ?_, fun l hl => Function.update_of_ne hl _ _⟩
  by_cases e : l = j
  · subst e
    simp [SameUse, Sim.setSt, hoff]
  · simp [SameUse, Sim.setSt, e]

/-- An early finish switches the heat source off, and nothing on but the backup of the heat pump in its place. -/
theorem afterEarly_sub {m : Libm} {fuel : ℕ} {dr : DR} {amb minutes : ℚ} {s s' : Sim n k} {i b j : Fin k} {w : ℚ}
    (hp : PumpWithBackup s i b w) (h : Sim.afterEarly m fuel dr amb s j minutes = .ok s') {l : Fin k}
    (hl : (s'.st l).isOn = true) : j = i ∧ l = b ∨ l ≠ j ∧ (s.st l).isOn = true := by
  unfold Sim.afterEarly at h
  dsimp only at h
  obtain ⟨fo, hfo, h⟩ := (bind_ok_iff _ _ _).mp h
  have hfo' : fo = none := by
    unfold Sim.follower at hfo
    have : ((s.disengage j).cfg.src j).followedBy = none := hp.noFollower j
    rw [this] at hfo
    exact (Except.ok.inj hfo).symm
  subst hfo'
  dsimp only at h
  obtain ⟨mx, -, h⟩ := (bind_ok_iff _ _ _).mp h
  by_cases e : j = i
  · subst e
    rw [hp.backup] at h
    cases mx with
    | false => cases h; exact .inr (disengage_on.mp hl)
    | true =>
      dsimp only at h
      unfold Sim.runBackup at h
      obtain ⟨r, h1, h⟩ := (bind_ok_iff _ _ _).mp h
      have hr : r.1 = s.disengage j := by
        unfold Sim.backupFree at h1
        have : ((s.disengage j).cfg.src b).kind = .resistance w := hp.element
        rw [this] at h1
        rw [← Except.ok.inj h1]
      split_ifs at h with h2
      · obtain ⟨s1, h3, h⟩ := (bind_ok_iff _ _ _).mp h
        rw [hr, engage_alone (s := s.disengage j) (hp.noCompanion b)] at h3
        cases h3
        by_cases hlb : l = b
        · exact .inl ⟨rfl, hlb⟩
        · have key : ((((s.disengage j).switched b).st l).isOn = true) → l ≠ j ∧ (s.st l).isOn = true := fun hx => by
            rcases switched_on.mp hx with hx | hx
            · exact absurd hx hlb
            · exact disengage_on.mp hx
          split_ifs at h
          · rw [(addHeatParent_only h).1 l hlb] at hl
            exact .inr (key hl)
          · cases h; exact .inr (key hl)
      · cases h
        rw [hr] at hl
        exact .inr (disengage_on.mp hl)
  · rw [hp.noBackup j e] at h
    cases mx <;> (cases h; exact .inr (disengage_on.mp hl))

theorem afterEarly_off {m : Libm} {fuel : ℕ} {dr : DR} {amb minutes : ℚ} {s s' : Sim n k} {i b j : Fin k} {w : ℚ}
    (hp : PumpWithBackup s i b w) (h : Sim.afterEarly m fuel dr amb s j minutes = .ok s') :
    ∀ l, l ≠ b → (s'.st l).isOn = true → l ≠ j ∧ (s.st l).isOn = true := fun _ hlb hl =>
  (afterEarly_sub hp h hl).resolve_left fun e => hlb e.2

/-- A turn switches nothing on but the backup of the heat pump in its place. -/
theorem heatBody_sub {m : Libm} {fuel : ℕ} {dr : DR} {amb minutes : ℚ} {s : Sim n k} {i b j : Fin k} {w : ℚ}
    {r : Sim n k × ℚ} (hp : PumpWithBackup s i b w) (h : Sim.heatBody m fuel dr amb s j minutes = .ok r) {l : Fin k}
    (hl : (r.1.st l).isOn = true) :
    (s.st l).isOn = true ∨ l = b ∧ (r.1.st i).isOn = false ∧ (s.st i).isOn = true := by
  by_cases hon : (s.st j).isOn = true
  · unfold Sim.heatBody at h
    obtain ⟨s1, h1, h⟩ := (bind_ok_iff _ _ _).mp h
    have c1 := (CtrlEq.applyLocks h1).cfg
    have hp1 := hp.of_cfg c1
    obtain ⟨x, y, e1, hy, -⟩ := applyLocks_only h1
    have sub1 : ∀ l, (s1.st l).isOn = true → (s.st l).isOn = true := fun l hl => by
      rw [e1] at hl
      by_cases e : l = j
      · rw [e]; exact hon
      · have : ((s.setSt j { s.st j with lockedOut := x, isOn := y }).st l) = s.st l := Function.update_of_ne e _ _
        rw [this] at hl
        exact hl
    split_ifs at h
    · obtain ⟨q, h2, h⟩ := (bind_ok_iff _ _ _).mp h
      have hq : q.1 = s1 := by
        unfold Sim.pickSource at h2
        by_cases e : j = i
        · subst e
          rw [hp1.backup] at h2
          split_ifs at h2
          · dsimp only at h2
            obtain ⟨v, h5, h2⟩ := (bind_ok_iff _ _ _).mp h2
            have hv : v.1 = s1 := by
              unfold Sim.backupBarred at h5
              obtain ⟨c, hc⟩ := hp1.pump
              rw [hp1.element, hc] at h5
              rw [← Except.ok.inj h5]
            split_ifs at h2 <;> (cases h2; exact hv)
          · cases h2; rfl
        · rw [hp1.noBackup j e] at h2
          split_ifs at h2 <;> (cases h2; rfl)
      obtain ⟨q1, q2⟩ := q
      dsimp only at hq h
      subst hq
      cases q2 with
      | none => cases h; exact .inl (sub1 l hl)
      | some v =>
        dsimp only at h
        unfold Sim.runSource at h
        obtain ⟨s2, h3, h⟩ := (bind_ok_iff _ _ _).mp h
        obtain ⟨f1, f2, -⟩ := addHeatParent_only h3
        have sub2 : ∀ l, (s2.st l).isOn = true → (s.st l).isOn = true := fun l hl => by
          by_cases e : l = v
          · subst e; rw [f2] at hl; exact sub1 l hl
          · rw [f1 l e] at hl; exact sub1 l hl
        split_ifs at h
        · obtain ⟨s3, h4, h⟩ := (bind_ok_iff _ _ _).mp h
          cases h
          have hp2 := hp1.of_cfg (addHeatParent_cfg h3)
          rcases afterEarly_sub hp2 h4 hl with ⟨e, e'⟩ | ⟨-, e⟩
          · subst e
            refine .inr ⟨e', ?_, hon⟩
            by_contra hc
            exact (afterEarly_off hp2 h4 j hp.ne.symm (by simpa using hc)).1 rfl
          · exact .inl (sub2 l e)
        · cases h; exact .inl (sub2 l hl)
    · cases h; exact .inl (sub1 l hl)
  · left
    rw [(heatBody_off (by simpa using hon) h).2.1 l |>.1] at hl
    exact hl

/-- No turn switches the heat pump on. -/
theorem heatBody_other {m : Libm} {fuel : ℕ} {dr : DR} {amb minutes : ℚ} {s : Sim n k} {i b j : Fin k} {w : ℚ}
    {r : Sim n k × ℚ} (hp : PumpWithBackup s i b w)
    (h : Sim.heatBody m fuel dr amb s j minutes = .ok r) : (r.1.st i).isOn = true → (s.st i).isOn = true := fun hi =>
  (heatBody_sub hp h hi).elim id fun e => e.2.2

theorem heatBody_keeps_cfg {m : Libm} {fuel : ℕ} {dr : DR} {amb : ℚ} {s : Sim n k} {i : Fin k} {minutes : ℚ} {r : Sim n k × ℚ}
    (h : Sim.heatBody m fuel dr amb s i minutes = .ok r) : r.1.cfg = s.cfg := by
  have H : HeatInduction m fuel dr amb s.cfg (fun _ => True) (fun a => a.cfg = s.cfg) (fun _ => True) :=
    ⟨fun _ h => h, fun _ _ c h => by rw [c.cfg]; exact h,
      fun _ _ _ _ _ h _ _ e => ⟨by rw [addHeatParent_cfg e]; exact h, fun _ => trivial⟩, fun _ _ _ _ _ _ => trivial⟩
  exact (H.heatBody (by simp [SimCfg.Covers]) rfl trivial h).1

/-- A heat pump that is off when the turns begin stays off. -/
theorem heatSrcLoop_off {m : Libm} {fuel : ℕ} {dr : DR} {amb : ℚ} {i b : Fin k} {w : ℚ} :
    ∀ (is : List (Fin k)) (s s' : Sim n k) (minutes : ℚ), PumpWithBackup s i b w → (s.st i).isOn = false →
      Sim.heatSrcLoop m fuel dr amb is s minutes = .ok s' → (s'.st i).isOn = false
  | [], s, s', _, _, ho, h => by cases h; exact ho
  | j :: is, s, s', minutes, hp, ho, h => by
    rw [Sim.heatSrcLoop] at h
    obtain ⟨r, h1, h⟩ := (bind_ok_iff _ _ _).mp h
    refine heatSrcLoop_off is r.1 s' r.2 (hp.of_cfg (heatBody_keeps_cfg h1)) ?_ h
    by_cases e : j = i
    · subst e
      rw [((heatBody_off ho h1).2.1 j).1]
      exact ho
    · by_contra hc
      rw [heatBody_other hp h1 (by simpa using hc)] at ho
      cases ho

/-- During the turns at most one heat source is on. -/
theorem heatSrcLoop_alone2 {m : Libm} {fuel : ℕ} {dr : DR} {amb : ℚ} {i b : Fin k} {w : ℚ} :
    ∀ (is : List (Fin k)) (s s' : Sim n k) (minutes : ℚ), PumpWithBackup s i b w →
      (∀ l l', (s.st l).isOn = true → (s.st l').isOn = true → l = l') →
      Sim.heatSrcLoop m fuel dr amb is s minutes = .ok s' →
      ∀ l l', (s'.st l).isOn = true → (s'.st l').isOn = true → l = l'
  | [], s, s', _, _, ho, h => by cases h; exact ho
  | j :: is, s, s', minutes, hp, ho, h => by
    rw [Sim.heatSrcLoop] at h
    obtain ⟨r, h1, h⟩ := (bind_ok_iff _ _ _).mp h
    refine heatSrcLoop_alone2 is r.1 s' r.2 (hp.of_cfg (heatBody_keeps_cfg h1)) (fun l l' hl hl' => ?_) h
    have key : ∀ {l}, (r.1.st l).isOn = true → (r.1.st i).isOn = false → (s.st i).isOn = true → l = b := by
      intro l hl hi hs
      rcases heatBody_sub hp h1 hl with e | ⟨e, -⟩
      · have := ho l i e hs
        subst this
        rw [hl] at hi
        cases hi
      · exact e
    rcases heatBody_sub hp h1 hl with e | ⟨e, e1, e2⟩
    · rcases heatBody_sub hp h1 hl' with e' | ⟨e', e1, e2⟩
      · exact ho l l' e e'
      · rw [e', key hl e1 e2]
    · rw [e, key hl' e1 e2]

/-- With all but heat source `i` off, turns of the others do nothing. -/
theorem heatSrcLoop_rest {m : Libm} {fuel : ℕ} {dr : DR} {amb : ℚ} {i : Fin k} :
    ∀ (is : List (Fin k)) (s s' : Sim n k) (minutes : ℚ), (∀ l, l ≠ i → (s.st l).isOn = false) → i ∉ is →
      Sim.heatSrcLoop m fuel dr amb is s minutes = .ok s' → (∀ l, SameUse s s' l) ∧ s'.st i = s.st i
  | [], s, s', _, _, _, h => by cases h; exact ⟨fun _ => ⟨rfl, rfl, rfl⟩, rfl⟩
  | j :: is, s, s', minutes, ho, hn, h => by
    rw [Sim.heatSrcLoop] at h
    obtain ⟨r, h1, h⟩ := (bind_ok_iff _ _ _).mp h
    have hji : j ≠ i := fun e => hn (by rw [e]; exact List.mem_cons_self)
    obtain ⟨-, a2, a3⟩ := heatBody_off (ho j hji) h1
    obtain ⟨b1, b2⟩ := heatSrcLoop_rest is r.1 s' r.2 (fun l hl => by rw [(a2 l).1]; exact ho l hl)
      (fun hm => hn (List.mem_cons_of_mem _ hm)) h
    exact ⟨fun l => ⟨(b1 l).1.trans (a2 l).1, (b1 l).2.1.trans (a2 l).2.1, (b1 l).2.2.trans (a2 l).2.2⟩,
      b2.trans (a3 i hji.symm)⟩

/-- What happened in a step after which the heat pump is on. -/
inductive Served (dr : DR) (s s' : Sim n k) (i b : Fin k) (w minutes : ℚ) : Prop
  | pump (free : (s'.st i).lockedOut = false) (whole : minutes ≤ (s'.st i).runtime_min)
      (rest : ∀ l, l ≠ i → SameUse s s' l)
  | element (locked : (s'.st i).lockedOut = true) (whole : minutes ≤ (s'.st b).runtime_min)
      (heat : (s'.st b).energyOutput_kWh = (s.st b).energyOutput_kWh + w * ((s'.st b).runtime_min / 60))
      (rest : ∀ l, l ≠ b → SameUse s s' l)
  | nothing (locked : (s'.st i).lockedOut = true) (signal : dr.lor = true) (rest : ∀ l, SameUse s s' l)

theorem heatBody_pump {m : Libm} {fuel : ℕ} {dr : DR} {amb minutes : ℚ} {s : Sim n k} {i b : Fin k} {w : ℚ}
    {r : Sim n k × ℚ} (hp : PumpWithBackup s i b w) (ho : ∀ l, l ≠ i → (s.st l).isOn = false)
    (h : Sim.heatBody m fuel dr amb s i minutes = .ok r) (hi : (r.1.st i).isOn = true) :
    Served dr s r.1 i b w minutes ∧ ∀ l, l ≠ i → (r.1.st l).isOn = false := by
  unfold Sim.heatBody at h
  obtain ⟨s1, h1, h⟩ := (bind_ok_iff _ _ _).mp h
  have c1 := (CtrlEq.applyLocks h1).cfg
  obtain ⟨x, y, e1, -, hy⟩ := applyLocks_only h1
  have hy := hy (by rw [hp.backup]; rfl)
  subst hy
  have ei : s1.st i = { s.st i with lockedOut := x } := by rw [e1]; exact Function.update_self ..
  have el : ∀ l, l ≠ i → s1.st l = s.st l := fun l hl => by rw [e1]; exact Function.update_of_ne hl _ _
  have hp1 := hp.of_cfg c1
  have early : ∀ {j : Fin k} {s2 s3 : Sim n k} {t : ℚ}, Sim.addHeatParent m fuel s1 j amb minutes = .ok s2 →
      Sim.afterEarly m fuel dr amb s2 i t = .ok s3 → ¬ (s3.st i).isOn = true := fun a1 a2 a3 =>
    (afterEarly_off (hp1.of_cfg (addHeatParent_cfg a1)) a2 i hp.ne.symm a3).1 rfl
  split_ifs at h with hon
  · obtain ⟨q, h2, h⟩ := (bind_ok_iff _ _ _).mp h
    unfold Sim.pickSource at h2
    cases x with
    | false =>
      rw [ei] at h2
      rw [if_neg (by simp)] at h2
      cases h2
      dsimp only at h
      unfold Sim.runSource at h
      obtain ⟨s2, h3, h⟩ := (bind_ok_iff _ _ _).mp h
      obtain ⟨f1, f2, f3⟩ := addHeatParent_only h3
      split_ifs at h with hlt
      · obtain ⟨s3, h4, h⟩ := (bind_ok_iff _ _ _).mp h
        cases h
        exact absurd hi (early h3 h4)
      · cases h
        refine ⟨.pump (by rw [f3, ei]) (not_lt.mp hlt) fun l hl => ?_, fun l hl => ?_⟩
        · show SameUse s s2 l
          unfold SameUse
          rw [f1 l hl, el l hl]
          exact ⟨rfl, rfl, rfl⟩
        · show (s2.st l).isOn = false
          rw [f1 l hl, el l hl]
          exact ho l hl
    | true =>
      rw [ei] at h2
      rw [if_pos rfl, hp1.backup] at h2
      dsimp only at h2
      obtain ⟨v, h5, h2⟩ := (bind_ok_iff _ _ _).mp h2
      have hv : v = (s1, dr.lor) := by
        unfold Sim.backupBarred at h5
        obtain ⟨c, hc⟩ := hp1.pump
        rw [hp1.element, hc, el b hp.ne, ho b hp.ne] at h5
        exact (Except.ok.inj h5).symm
      subst hv
      cases hlor : dr.lor with
      | true =>
        rw [hlor] at h2
        cases h2
        cases h
        refine ⟨.nothing (by rw [ei]) hlor fun l => ?_, fun l hl => ?_⟩
        · unfold SameUse
          by_cases e : l = i
          · subst e; rw [ei]; exact ⟨rfl, rfl, rfl⟩
          · rw [el l e]; exact ⟨rfl, rfl, rfl⟩
        · rw [el l hl]; exact ho l hl
      | false =>
        have hvip : s1.vipOn = false := by
          unfold Sim.vipOn
          rw [hp1.noPriority.1]
        rw [hlor] at h2
        simp only [hvip, Bool.false_and, Bool.false_eq_true, if_false] at h2
        cases h2
        dsimp only at h
        unfold Sim.runSource at h
        obtain ⟨s2, h3, h⟩ := (bind_ok_iff _ _ _).mp h
        obtain ⟨f1, f2, f3⟩ := addHeatParent_only h3
        split_ifs at h with hlt
        · obtain ⟨s3, h4, h⟩ := (bind_ok_iff _ _ _).mp h
          cases h
          exact absurd hi (early h3 h4)
        · cases h
          have hout : (s2.st b).energyOutput_kWh = (s1.st b).energyOutput_kWh + w * ((s2.st b).runtime_min / 60) := by
            unfold Sim.addHeatParent Sim.addHeat Sim.addHeatKind at h3
            rw [hp1.element] at h3
            dsimp only at h3
            obtain ⟨z, h6, h3⟩ := (bind_ok_iff _ _ _).mp h3
            rw [← Except.ok.inj h3]
            simp only [Function.update_self]
            unfold resistanceAddHeat at h6
            obtain ⟨d, -, h6⟩ := (bind_ok_iff _ _ _).mp h6
            dsimp only at h6
            obtain ⟨g, -, h6⟩ := (bind_ok_iff _ _ _).mp h6
            split_ifs at h6
            rw [← Except.ok.inj h6]
            rfl
          have same : ∀ l, l ≠ b → SameUse s s2 l := fun l hl => by
            unfold SameUse
            rw [f1 l hl]
            by_cases e : l = i
            · subst e; rw [ei]; exact ⟨rfl, rfl, rfl⟩
            · rw [el l e]; exact ⟨rfl, rfl, rfl⟩
          refine ⟨.element (by rw [f1 i hp.ne.symm, ei]) (not_lt.mp hlt) (by rw [hout, el b hp.ne]) same, fun l hl => ?_⟩
          by_cases e : l = b
          · subst e
            show (s2.st l).isOn = false
            rw [f2, el l hl]
            exact ho l hl
          · show (s2.st l).isOn = false
            rw [(same l e).1]
            exact ho l hl
  · cases h
    exact absurd hi hon

theorem heatSrcLoop_served {m : Libm} {fuel : ℕ} {dr : DR} {amb : ℚ} {i b : Fin k} {w : ℚ} :
    ∀ (is : List (Fin k)) (s s' : Sim n k) (minutes : ℚ), PumpWithBackup s i b w → (∀ l, l ≠ i → (s.st l).isOn = false) →
      is.Nodup → i ∈ is → Sim.heatSrcLoop m fuel dr amb is s minutes = .ok s' → (s'.st i).isOn = true →
      Served dr s s' i b w minutes ∧ ∀ l, l ≠ i → (s'.st l).isOn = false
  | [], _, _, _, _, _, _, hm, _, _ => by cases hm
  | j :: is, s, s', minutes, hp, ho, hd, hm, h, hi => by
    rw [Sim.heatSrcLoop] at h
    obtain ⟨r, h1, h⟩ := (bind_ok_iff _ _ _).mp h
    have hd' := List.nodup_cons.mp hd
    by_cases e : j = i
    · subst e
      have hon : (r.1.st j).isOn = true := by
        by_contra hc
        rw [heatSrcLoop_off is r.1 s' r.2 (hp.of_cfg (heatBody_keeps_cfg h1)) (by simpa using hc) h] at hi
        cases hi
      obtain ⟨a1, a2⟩ := heatBody_pump hp ho h1 hon
      obtain ⟨b1, b2⟩ := heatSrcLoop_rest is r.1 s' r.2 a2 hd'.1 h
      have tr : ∀ l, SameUse s r.1 l → SameUse s s' l := fun l c =>
        ⟨(b1 l).1.trans c.1, (b1 l).2.1.trans c.2.1, (b1 l).2.2.trans c.2.2⟩
      refine ⟨?_, fun l hl => by rw [(b1 l).1]; exact a2 l hl⟩
      cases a1 with
      | pump x1 x2 x3 => exact .pump (by rw [b2]; exact x1) (by rw [b2]; exact x2) fun l hl => tr l (x3 l hl)
      | element x1 x2 x3 x4 =>
        exact .element (by rw [b2]; exact x1) (by rw [(b1 b).2.1]; exact x2) (by rw [(b1 b).2.1, (b1 b).2.2]; exact x3)
          fun l hl => tr l (x4 l hl)
      | nothing x1 x2 x3 => exact .nothing (by rw [b2]; exact x1) x2 fun l => tr l (x3 l)
    · obtain ⟨a1, a2, a3⟩ := heatBody_off (ho j e) h1
      have hm' : i ∈ is := by
        rcases List.mem_cons.mp hm with hm | hm
        · exact absurd hm.symm e
        · exact hm
      obtain ⟨b1, b2⟩ := heatSrcLoop_served is r.1 s' r.2 (hp.of_cfg (heatBody_keeps_cfg h1))
        (fun l hl => by rw [(a2 l).1]; exact ho l hl) hd'.2 hm' h hi
      have tr : ∀ l, SameUse r.1 s' l → SameUse s s' l := fun l c =>
        ⟨c.1.trans (a2 l).1, c.2.1.trans (a2 l).2.1, c.2.2.trans (a2 l).2.2⟩
      refine ⟨?_, b2⟩
      rw [a1] at b1
      cases b1 with
      | pump x1 x2 x3 => exact .pump x1 x2 fun l hl => tr l (x3 l hl)
      | element x1 x2 x3 x4 => exact .element x1 x2 (by rw [x3, (a2 b).2.2]) fun l hl => tr l (x4 l hl)
      | nothing x1 x2 x3 => exact .nothing x1 x2 fun l => tr l (x3 l)

theorem control_served {m : Libm} {fuel : ℕ} {dr : DR} {amb : ℚ} {s s' : Sim n k} {i b : Fin k} {w : ℚ}
    (hp : PumpWithBackup s i b w) (h1 : OneAtMost s) (htop : dr.too = false ∧ dr.tot = false)
    (h : Sim.control m fuel dr amb s = .ok s') (hi : (s'.st i).isOn = true) :
    ∃ a, CtrlEq s a ∧ Served dr a s' i b w s.cfg.minutesPerStep ∧ ∀ l, l ≠ i → (s'.st l).isOn = false := by
  unfold Sim.control at h
  obtain ⟨s1, h2, h⟩ := (bind_ok_iff _ _ _).mp h
  have hst : s'.st = s1.st := by
    rw [← Except.ok.inj h]
    split_ifs <;> rfl
  have conv : ∀ a, Served dr a s1 i b w s.cfg.minutesPerStep → Served dr a s' i b w s.cfg.minutesPerStep := fun a c => by
    have e : ∀ l, SameUse a s1 l → SameUse a s' l := fun l d => by unfold SameUse; rw [hst]; exact d
    cases c with
    | pump x1 x2 x3 => exact .pump (by rw [hst]; exact x1) (by rw [hst]; exact x2) fun l hl => e l (x3 l hl)
    | element x1 x2 x3 x4 =>
      exact .element (by rw [hst]; exact x1) (by rw [hst]; exact x2) (by rw [hst]; exact x3) fun l hl => e l (x4 l hl)
    | nothing x1 x2 x3 => exact .nothing (by rw [hst]; exact x1) x2 fun l => e l (x3 l)
  rw [hst] at hi ⊢
  unfold Sim.normalControl at h2
  by_cases hd : (dr.loc && dr.lor) = true
  · rw [if_pos hd] at h2
    rw [← Except.ok.inj h2] at hi
    cases hi
  rw [if_neg hd] at h2
  obtain ⟨a, ha, h2⟩ := (bind_ok_iff _ _ _).mp h2
  obtain ⟨c, hc, h2⟩ := (bind_ok_iff _ _ _).mp h2
  have ea : a = s := by
    unfold Sim.topOff at ha
    rw [htop.1, htop.2] at ha
    exact (Except.ok.inj ha).symm
  subst ea
  have one := chooseLoop_one _ _ _ hp h1 hc
  have cc := CtrlEq.chooseLoop hc
  have hpc := hp.of_cfg cc.cfg
  have hon : (c.st i).isOn = true := by
    by_contra hx
    rw [heatSrcLoop_off _ _ _ _ hpc (by simpa using hx) h2] at hi
    cases hi
  obtain ⟨r1, r2⟩ := heatSrcLoop_served (List.finRange k) c s1 _ hpc
    (fun l hl => by
      by_contra hx
      exact hl (one.alone l i (by simpa using hx) hon)) (List.nodup_finRange k) (List.mem_finRange i) h2 hi
  exact ⟨c, cc, conv c r1, r2⟩

theorem control_alone2 {m : Libm} {fuel : ℕ} {dr : DR} {amb : ℚ} {s s' : Sim n k} {i b : Fin k} {w : ℚ}
    (hp : PumpWithBackup s i b w) (h1 : OneAtMost s) (htop : dr.too = false ∧ dr.tot = false)
    (h : Sim.control m fuel dr amb s = .ok s') : ∀ l l', (s'.st l).isOn = true → (s'.st l').isOn = true → l = l' := by
  unfold Sim.control at h
  obtain ⟨s1, h2, h⟩ := (bind_ok_iff _ _ _).mp h
  have hst : s'.st = s1.st := by
    rw [← Except.ok.inj h]
    split_ifs <;> rfl
  rw [hst]
  unfold Sim.normalControl at h2
  by_cases hd : (dr.loc && dr.lor) = true
  · rw [if_pos hd] at h2
    rw [← Except.ok.inj h2]
    intro l l' hl
    cases hl
  rw [if_neg hd] at h2
  obtain ⟨a, ha, h2⟩ := (bind_ok_iff _ _ _).mp h2
  obtain ⟨c, hc, h2⟩ := (bind_ok_iff _ _ _).mp h2
  have ea : a = s := by
    unfold Sim.topOff at ha
    rw [htop.1, htop.2] at ha
    exact (Except.ok.inj ha).symm
  subst ea
  exact heatSrcLoop_alone2 _ _ _ _ (hp.of_cfg (CtrlEq.chooseLoop hc).cfg) (chooseLoop_one _ _ _ hp h1 hc).alone h2

/-! ## When the heat pump goes off -/

theorem heatBody_off_ctrl {m : Libm} {fuel : ℕ} {dr : DR} {amb minutes : ℚ} {s : Sim n k} {j : Fin k} {r : Sim n k × ℚ}
    (hoff : (s.st j).isOn = false) (h : Sim.heatBody m fuel dr amb s j minutes = .ok r) : CtrlEq s r.1 := by
  unfold Sim.heatBody at h
  obtain ⟨s1, h1, h⟩ := (bind_ok_iff _ _ _).mp h
  have c := CtrlEq.applyLocks h1
  obtain ⟨x, y, rfl, hy, -⟩ := applyLocks_only h1
  have hy' : y = false := by
    cases y with
    | false => rfl
    | true => rw [hy rfl] at hoff; cases hoff
  subst hy'
  rw [if_neg (by simp [Sim.setSt])] at h
  cases h
  exact c

/-- The setpoint is within what the heat pump can reach. -/
def Reaches (s : Sim n k) (i : Fin k) : Prop := ∀ c, (s.cfg.src i).kind = .condenser c → s.setpoint ≤ c.maxSetpoint

theorem Reaches.addHeatParent {m : Libm} {fuel : ℕ} {s s' : Sim n k} {i j : Fin k} {amb minutes : ℚ} (hr : Reaches s i)
    (h : s.addHeatParent m fuel j amb minutes = .ok s') : Reaches s' i := by
  have key : ∀ {a a' : Sim n k}, a.addHeat m fuel j amb minutes = .ok a' → a'.setpoint = a.setpoint := by
    intro a a' ha
    unfold Sim.addHeat at ha
    obtain ⟨r, h1, ha⟩ := (bind_ok_iff _ _ _).mp ha
    rw [← Except.ok.inj ha]
    exact (addHeatKind_frame (p' := r.1) (st' := r.2) h1).1.2.1
  intro c hc
  rw [addHeatParent_cfg h] at hc
  have hle := hr c hc
  rcases addHeatParent_cases h with h | ⟨c', s2, -, -, hle', -, h, h'⟩
  · rw [key h]; exact hle
  · have := key h
    rcases h' with ⟨-, rfl⟩ | ⟨-, rfl⟩
    · exact hle
    · rw [this]; exact hle'.trans hle

theorem afterEarly_reaches {m : Libm} {fuel : ℕ} {dr : DR} {amb minutes : ℚ} {s s' : Sim n k} {i b : Fin k} {w : ℚ}
    (hp : PumpWithBackup s i b w) (hr : Reaches s i) (h : Sim.afterEarly m fuel dr amb s i minutes = .ok s') :
    s' = s.disengage i := by
  unfold Sim.afterEarly at h
  dsimp only at h
  obtain ⟨fo, hfo, h⟩ := (bind_ok_iff _ _ _).mp h
  have hfo' : fo = none := by
    unfold Sim.follower at hfo
    have : ((s.disengage i).cfg.src i).followedBy = none := hp.noFollower i
    rw [this] at hfo
    exact (Except.ok.inj hfo).symm
  subst hfo'
  dsimp only at h
  obtain ⟨mx, hmx, h⟩ := (bind_ok_iff _ _ _).mp h
  obtain ⟨c, hc⟩ := hp.pump
  have : mx = false := by
    unfold SourceCfg.maxedOut at hmx
    rw [hc] at hmx
    dsimp only at hmx
    have hle : ¬ (s.disengage i).setpoint > c.maxSetpoint := not_lt.mpr (hr c hc)
    rw [if_neg hle] at hmx
    exact (Except.ok.inj hmx).symm
  subst this
  exact (Except.ok.inj h).symm

/-- Why heat pump `i` went off in a step. -/
def Ended (dr : DR) (s' : Sim n k) (i b : Fin k) (minutes : ℚ) : Prop :=
  (s'.st i).lockedOut = false ∧ (s'.st i).runtime_min < minutes ∨
    (s'.st i).lockedOut = true ∧ dr.lor = false ∧ (s'.st b).runtime_min < minutes

theorem heatBody_ended {m : Libm} {fuel : ℕ} {dr : DR} {amb minutes : ℚ} {s : Sim n k} {i b : Fin k} {w : ℚ}
    {r : Sim n k × ℚ} (hp : PumpWithBackup s i b w) (hr : Reaches s i) (hon : (s.st i).isOn = true)
    (ho : ∀ l, l ≠ i → (s.st l).isOn = false) (h : Sim.heatBody m fuel dr amb s i minutes = .ok r)
    (hi : (r.1.st i).isOn = false) : Ended dr r.1 i b minutes ∧ ∀ l, (r.1.st l).isOn = false := by
  unfold Sim.heatBody at h
  obtain ⟨s1, h1, h⟩ := (bind_ok_iff _ _ _).mp h
  have c1 := (CtrlEq.applyLocks h1).cfg
  obtain ⟨x, y, e1, -, hy⟩ := applyLocks_only h1
  have hy := hy (by rw [hp.backup]; rfl)
  subst hy
  have ei : s1.st i = { s.st i with lockedOut := x } := by rw [e1]; exact Function.update_self ..
  have el : ∀ l, l ≠ i → s1.st l = s.st l := fun l hl => by rw [e1]; exact Function.update_of_ne hl _ _
  have hp1 := hp.of_cfg c1
  have hr1 : Reaches s1 i := by rw [e1]; exact hr
  have hon1 : (s1.st i).isOn = true := by rw [ei]; exact hon
  have off1 : ∀ {j : Fin k} {s2 : Sim n k}, Sim.addHeatParent m fuel s1 j amb minutes = .ok s2 →
      (∀ l, (s2.st l).isOn = (s1.st l).isOn) ∧ ∀ l, (s2.st l).lockedOut = (s1.st l).lockedOut := by
    intro j s2 a
    obtain ⟨f1, f2, f3⟩ := addHeatParent_only a
    refine ⟨fun l => ?_, fun l => ?_⟩ <;> by_cases e : l = j
    · rw [e]; exact f2
    · rw [f1 l e]
    · rw [e]; exact f3
    · rw [f1 l e]
  have runs : ∀ {j : Fin k}, Sim.runSource m fuel dr amb s1 i j minutes = .ok r →
      (r.1.st i).lockedOut = x ∧ (r.1.st j).runtime_min < minutes ∧ ∀ l, (r.1.st l).isOn = false := by
    intro j hj
    unfold Sim.runSource at hj
    obtain ⟨s2, h3, hj⟩ := (bind_ok_iff _ _ _).mp hj
    obtain ⟨o1, o2⟩ := off1 h3
    split_ifs at hj with hlt
    · obtain ⟨s3, h4, hj⟩ := (bind_ok_iff _ _ _).mp hj
      have e3 := afterEarly_reaches (hp1.of_cfg (addHeatParent_cfg h3)) (hr1.addHeatParent h3) h4
      cases hj
      have di : (s2.disengage i).st i = { s2.st i with isOn := false } := Function.update_self ..
      have dl : ∀ l, l ≠ i → (s2.disengage i).st l = s2.st l := fun l hl => Function.update_of_ne hl _ _
      rw [e3]
      refine ⟨?_, ?_, fun l => ?_⟩
      · show ((s2.disengage i).st i).lockedOut = x
        rw [di]
        show (s2.st i).lockedOut = x
        rw [o2, ei]
      · show ((s2.disengage i).st j).runtime_min < minutes
        by_cases e : j = i
        · subst e; rw [di]; exact hlt
        · rw [dl j e]; exact hlt
      · show ((s2.disengage i).st l).isOn = false
        by_cases e : l = i
        · subst e; rw [di]
        · rw [dl l e, o1, el l e]; exact ho l e
    · cases hj
      have hi' : (s2.st i).isOn = false := hi
      rw [o1, hon1] at hi'
      cases hi'
  rw [if_pos hon1] at h
  obtain ⟨q, h2, h⟩ := (bind_ok_iff _ _ _).mp h
  unfold Sim.pickSource at h2
  cases x with
  | false =>
    rw [ei] at h2
    rw [if_neg (by simp)] at h2
    cases h2
    obtain ⟨a1, a2, a3⟩ := runs h
    exact ⟨.inl ⟨a1, a2⟩, a3⟩
  | true =>
    rw [ei] at h2
    rw [if_pos rfl, hp1.backup] at h2
    dsimp only at h2
    obtain ⟨v, h5, h2⟩ := (bind_ok_iff _ _ _).mp h2
    have hv : v = (s1, dr.lor) := by
      unfold Sim.backupBarred at h5
      obtain ⟨c, hc⟩ := hp1.pump
      rw [hp1.element, hc, el b hp.ne, ho b hp.ne] at h5
      exact (Except.ok.inj h5).symm
    subst hv
    cases hlor : dr.lor with
    | true =>
      rw [hlor] at h2
      cases h2
      cases h
      have hi' : (s1.st i).isOn = false := hi
      rw [hon1] at hi'
      cases hi'
    | false =>
      have hvip : s1.vipOn = false := by
        unfold Sim.vipOn
        rw [hp1.noPriority.1]
      rw [hlor] at h2
      simp only [hvip, Bool.false_and, Bool.false_eq_true, if_false] at h2
      cases h2
      obtain ⟨a1, a2, a3⟩ := runs h
      exact ⟨.inr ⟨a1, hlor, a2⟩, a3⟩

theorem heatSrcLoop_ended {m : Libm} {fuel : ℕ} {dr : DR} {amb : ℚ} {i b : Fin k} {w : ℚ} :
    ∀ (is : List (Fin k)) (s s' : Sim n k) (minutes : ℚ), PumpWithBackup s i b w → Reaches s i → (s.st i).isOn = true →
      (∀ l, l ≠ i → (s.st l).isOn = false) → is.Nodup →
      Sim.heatSrcLoop m fuel dr amb is s minutes = .ok s' → (s'.st i).isOn = false →
      Ended dr s' i b minutes ∧ ∀ l, (s'.st l).isOn = false
  | [], s, s', _, _, _, hon, _, _, h, hi => by
    cases h
    rw [hon] at hi
    cases hi
  | j :: is, s, s', minutes, hp, hr, hon, ho, hd, h, hi => by
    rw [Sim.heatSrcLoop] at h
    obtain ⟨r, h1, h⟩ := (bind_ok_iff _ _ _).mp h
    have hd' := List.nodup_cons.mp hd
    by_cases e : j = i
    · subst e
      by_cases hx : (r.1.st j).isOn = true
      · exfalso
        obtain ⟨-, a2⟩ := heatBody_pump hp ho h1 hx
        obtain ⟨-, b2⟩ := heatSrcLoop_rest is r.1 s' r.2 a2 hd'.1 h
        rw [b2, hx] at hi
        cases hi
      · obtain ⟨a1, a2⟩ := heatBody_ended hp hr hon ho h1 (by simpa using hx)
        obtain ⟨b1, b2⟩ := heatSrcLoop_rest is r.1 s' r.2 (fun l _ => a2 l) hd'.1 h
        refine ⟨?_, fun l => by rw [(b1 l).1]; exact a2 l⟩
        rcases a1 with ⟨x1, x2⟩ | ⟨x1, x2, x3⟩
        · exact .inl ⟨by rw [b2]; exact x1, by rw [b2]; exact x2⟩
        · exact .inr ⟨by rw [b2]; exact x1, x2, by rw [(b1 b).2.1]; exact x3⟩
    · obtain ⟨a1, a2, a3⟩ := heatBody_off (ho j e) h1
      have c := heatBody_off_ctrl (ho j e) h1
      have := heatSrcLoop_ended is r.1 s' r.2 (hp.of_cfg c.cfg)
        (fun c' hc' => by rw [c.cfg] at hc'; rw [c.plant]; exact hr c' hc') (by rw [(a2 i).1]; exact hon)
        (fun l hl => by rw [(a2 l).1]; exact ho l hl) hd'.2 h hi
      rwa [a1] at this

theorem chooseLoop_stays {dr : DR} {i b : Fin k} {w : ℚ} : ∀ (is : List (Fin k)) (s s' : Sim n k), PumpWithBackup s i b w →
    s.isHeating = true → (∀ l, l ≠ i → (s.st l).isOn = false) → ¬ ToldToShutOff (s.cfg.src i) s.toPlant →
    s.chooseLoop dr is = .ok s' → s' = s
  | [], s, s', _, _, _, _, h1 => (Except.ok.inj h1).symm
  | j :: is, s, s', hp, hh, ho, ht, h1 => by
    rw [Sim.chooseLoop] at h1
    obtain ⟨r, h2, h1⟩ := (bind_ok_iff _ _ _).mp h1
    have e : r = (s, false) := by
      unfold Sim.chooseBody at h2
      rw [if_pos hh] at h2
      obtain ⟨s1, h3, h2⟩ := (bind_ok_iff _ _ _).mp h2
      rw [hp.noPriority.2 j] at h2
      have : s1 = s := by
        unfold Sim.handOver at h3
        obtain ⟨off, ho', h3⟩ := (bind_ok_iff _ _ _).mp h3
        have : off = false := by
          unfold Sim.engagedShutsOff at ho'
          by_cases hj : j = i
          · subst hj
            split_ifs at ho'
            · by_contra hc
              exact ht ((shutsOff_iff _ _ _ ho').mp (by simpa using hc))
            · exact (Except.ok.inj ho').symm
          · rw [ho j hj] at ho'
            exact (Except.ok.inj ho').symm
        subst this
        exact (Except.ok.inj h3).symm
      subst this
      exact (Except.ok.inj h2).symm
    subst e
    exact chooseLoop_stays is s s' hp hh ho ht h1

/-! ## C109 -/

/-- **C109.** A water heater whose heat pump is on after a step has heated without pause: the heat pump ran for the whole
step, or it is locked out and its backup element ran for the whole step in its place and delivered its full power, or
the element is locked out too, by a signal, and nothing ran. No other heat source did anything, and none is on. -/
theorem C109_no_pause (m : Libm) (hexp : ∀ x, 0 ≤ m.exp x) (fuel : ℕ) (s s' : Sim n k) (u : Sim.StepInput) (lo : ℚ)
    (hi : WithTop ℚ) (ha : s.Accountable u lo hi) (i b : Fin k) (power : ℚ) (hp : PumpWithBackup s i b power)
    (h1 : OneAtMost s) (htop : u.dr.too = false ∧ u.dr.tot = false) (h : Sim.runOneStep m fuel s u = .ok s')
    (hon : (s'.st i).isOn = true) :
    (∀ l, l ≠ i → (s'.st l).isOn = false) ∧
    ((s'.st i).lockedOut = false ∧ (s'.st i).runtime_min = s.cfg.minutesPerStep ∧ (∀ l, l ≠ i → Idle s' l) ∨
      (s'.st i).lockedOut = true ∧ (s'.st b).runtime_min = s.cfg.minutesPerStep ∧
        (s'.st b).energyOutput_kWh = power * (s.cfg.minutesPerStep / 60) ∧ (∀ l, l ≠ b → Idle s' l) ∨
      (s'.st i).lockedOut = true ∧ u.dr.lor = true ∧ ∀ l, Idle s' l) := by
  obtain ⟨-, -, hrun, -⟩ := step_facts m hexp fuel s s' u lo hi ha h
  obtain ⟨-, s0, s1, s2, hs, hctl, h2, rfl⟩ := runOneStep_ok h
  obtain ⟨-, x2, -⟩ := extraStep_frame h2
  obtain ⟨-, -, -, -, -, g6, -, -⟩ := finish_facts s2 u.tankAmbient u.dr
  rw [x2] at g6
  rw [(g6 i).2.2.1] at hon
  have hone : OneAtMost s0 := by
    refine ⟨fun a c ha hc => h1.alone a c ?_ ?_, fun a ha => ?_⟩
    · rw [hs.st] at ha; exact ha
    · rw [hs.st] at hc; exact hc
    · rw [hs.isHeating]
      rw [hs.st] at ha
      exact h1.known a ha
  obtain ⟨a, c, hv, hoff⟩ := control_served (hp.of_cfg hs.cfg) hone htop hctl hon
  rw [hs.cfg] at hv
  have fresh : ∀ l, (a.st l).runtime_min = 0 ∧ (a.st l).energyOutput_kWh = 0 := fun l => by
    rw [c.st l, hs.st l]
    exact ⟨rfl, rfl⟩
  have idle : ∀ l, SameUse a s1 l → Idle (((s2.trackLocation u.tankAmbient).settleOutputs).updateTimer u.dr) l := fun l d => by
    refine ⟨?_, ?_⟩
    · rw [(g6 l).1, d.2.1]; exact (fresh l).1
    · rw [(g6 l).2.1, d.2.2]; exact (fresh l).2
  refine ⟨fun l hl => by rw [(g6 l).2.2.1]; exact hoff l hl, ?_⟩
  cases hv with
  | pump x1 x3 x4 =>
    refine .inl ⟨by rw [(g6 i).2.2.2]; exact x1, le_antisymm (hrun i).2 (by rw [(g6 i).1]; exact x3), fun l hl => idle l (x4 l hl)⟩
  | element x1 x3 x4 x5 =>
    have e : (s1.st b).runtime_min = s.cfg.minutesPerStep := le_antisymm (by have := (hrun b).2; rwa [(g6 b).1] at this) x3
    refine .inr (.inl ⟨by rw [(g6 i).2.2.2]; exact x1, by rw [(g6 b).1]; exact e, ?_, fun l hl => idle l (x5 l hl)⟩)
    rw [(g6 b).2.1, x4, (fresh b).2, e, zero_add]
  | nothing x1 x3 x4 => exact .inr (.inr ⟨by rw [(g6 i).2.2.2]; exact x1, x3, fun l => idle l (x4 l)⟩)

/-- **C109.** At most one heat source of such a water heater is on after any sequence of steps, whatever the inputs, if
there was no signal to top off. -/
theorem C109_alone (m : Libm) (fuel N : ℕ) (s : ℕ → Sim n k) (u : ℕ → Sim.StepInput) (h : Sim.History m fuel N s u)
    (i b : Fin k) (power : ℚ) (hp : PumpWithBackup (s 0) i b power) (h1 : OneAtMost (s 0))
    (htop : ∀ t < N, (u t).dr.too = false ∧ (u t).dr.tot = false) :
    ∀ t ≤ N, PumpWithBackup (s t) i b power ∧ OneAtMost (s t) := by
  intro t
  induction t with
  | zero => exact fun _ => ⟨hp, h1⟩
  | succ t ih =>
    intro ht
    obtain ⟨ip, io⟩ := ih (by omega)
    have hst := h t (by omega)
    have hflag := C91_flag m fuel _ _ _ io.known hst
    obtain ⟨-, s0, s1, s2, hs, hctl, h2, e⟩ := runOneStep_ok hst
    obtain ⟨x1, x2, -⟩ := extraStep_frame h2
    obtain ⟨-, g2, -, -, -, g6, -, -⟩ := finish_facts s2 (u t).tankAmbient (u t).dr
    have hone : OneAtMost s0 := by
      refine ⟨fun a c ha hc => io.alone a c ?_ ?_, fun a ha => ?_⟩
      · rw [hs.st] at ha; exact ha
      · rw [hs.st] at hc; exact hc
      · rw [hs.isHeating]
        rw [hs.st] at ha
        exact io.known a ha
    have key := control_alone2 (ip.of_cfg hs.cfg) hone (htop t (by omega)) hctl
    refine ⟨ip.of_cfg (by rw [e, g2, x1, (control_frame hctl).cfg, hs.cfg]), fun l l' hl hl' => ?_, fun l hl => hflag.mpr ⟨l, hl⟩⟩
    rw [e, (g6 _).2.2.1, x2] at hl hl'
    exact key l l' hl hl'

/-- **C109.** Being locked out does not switch the heat pump off. Suppose its setpoint is within its reach, it was on before
the step, the water does not tell it to shut off after the draw, and there is no signal that locks out both heat pump and
element. If it is off after the step, then either it was not locked out and finished before the end of the step, or it was
locked out, elements were not, and its backup finished before the end of the step. Then no heat source is on. -/
theorem C109_ends (m : Libm) (fuel : ℕ) (s s' : Sim n k) (u : Sim.StepInput) (i b : Fin k) (power : ℚ)
    (hp : PumpWithBackup s i b power) (h1 : OneAtMost s) (htop : u.dr.too = false ∧ u.dr.tot = false)
    (hdr : ¬ (u.dr.loc = true ∧ u.dr.lor = true))
    (hr : ∀ c, (s.cfg.src i).kind = .condenser c → s.setpoint ≤ c.maxSetpoint) (hon : (s.st i).isOn = true)
    (ht : ∀ p, AfterDraw s u p → ¬ ToldToShutOff (s.cfg.src i) p) (h : Sim.runOneStep m fuel s u = .ok s')
    (hoff : (s'.st i).isOn = false) :
    (∀ l, (s'.st l).isOn = false) ∧
    ((s'.st i).lockedOut = false ∧ (s'.st i).runtime_min < s.cfg.minutesPerStep ∨
      (s'.st i).lockedOut = true ∧ u.dr.lor = false ∧ (s'.st b).runtime_min < s.cfg.minutesPerStep) := by
  obtain ⟨-, s0, s1, s2, hs, hctl, h2, rfl⟩ := runOneStep_ok h
  obtain ⟨-, x2, -⟩ := extraStep_frame h2
  obtain ⟨-, -, -, -, -, g6, -, -⟩ := finish_facts s2 u.tankAmbient u.dr
  rw [x2] at g6
  rw [(g6 i).2.2.1] at hoff
  have hon0 : (s0.st i).isOn = true := by rw [hs.st]; exact hon
  have ho0 : ∀ l, l ≠ i → (s0.st l).isOn = false := fun l hl => by
    rw [hs.st]
    show (s.st l).isOn = false
    by_contra hc
    exact hl (h1.alone l i (by simpa using hc) hon)
  have hh0 : s0.isHeating = true := by rw [hs.isHeating]; exact h1.known i hon
  have hp0 := hp.of_cfg hs.cfg
  have hr0 : Reaches s0 i := fun c hc => by
    rw [hs.cfg] at hc
    rw [hs.setpoint]
    exact hr c hc
  have ht0 : ¬ ToldToShutOff (s0.cfg.src i) s0.toPlant := by rw [hs.cfg]; exact ht _ hs.plant
  unfold Sim.control at hctl
  obtain ⟨s3, h3, hctl⟩ := (bind_ok_iff _ _ _).mp hctl
  have hst : s1.st = s3.st := by
    rw [← Except.ok.inj hctl]
    split_ifs <;> rfl
  unfold Sim.normalControl at h3
  rw [if_neg (by simpa using hdr)] at h3
  obtain ⟨a, ha, h3⟩ := (bind_ok_iff _ _ _).mp h3
  obtain ⟨c, hc, h3⟩ := (bind_ok_iff _ _ _).mp h3
  have ea : a = s0 := by
    unfold Sim.topOff at ha
    rw [htop.1, htop.2] at ha
    exact (Except.ok.inj ha).symm
  subst ea
  obtain rfl := chooseLoop_stays _ _ _ hp0 hh0 ho0 ht0 hc
  rw [hst] at hoff g6
  obtain ⟨r1, r2⟩ := heatSrcLoop_ended _ _ _ _ hp0 hr0 hon0 ho0 (List.nodup_finRange k) h3 hoff
  refine ⟨fun l => by rw [(g6 l).2.2.1]; exact r2 l, ?_⟩
  rw [(g6 i).2.2.2, (g6 i).1, (g6 b).1, ← hs.cfg]
  exact r1

theorem sampleSim_served : PumpWithBackup sampleSim 0 1 (9 / 2) where
  pump := ⟨sampleCond, rfl⟩
  element := rfl
  backup := rfl
  noBackup := by decide +kernel
  noCompanion := by decide +kernel
  noFollower := by decide +kernel
  noPriority := by decide +kernel

theorem sampleSim_one : OneAtMost sampleSim where
  alone := by decide +kernel
  known := by decide +kernel

theorem sampleSim_any_air (air : ℚ) : sampleSim.Accountable { sampleInput with sourceAmbient := air } 0 ⊤ :=
  { sampleSim_accountable with sound := sampleSim_sound _ _ _ _ }

/-- The heat pump of `sampleSim` runs in air at 15 °C. -/
example : sampleSim.Accountable sampleInput 0 ⊤ ∧ PumpWithBackup sampleSim 0 1 (9 / 2) ∧ OneAtMost sampleSim ∧
    ∃ s', Sim.runOneStep sampleLibm 5 sampleSim sampleInput = .ok s' ∧ (s'.st 0).isOn = true ∧
      (s'.st 0).lockedOut = false ∧ (s'.st 0).runtime_min = 1 ∧ (s'.st 1).runtime_min = 0 :=
  ⟨sampleSim_accountable, sampleSim_served, sampleSim_one, by decide +kernel⟩

/-- The element stands in for it in air at -150 °C, which locks it out. -/
example : sampleSim.Accountable { sampleInput with sourceAmbient := -150 } 0 ⊤ ∧
    ∃ s', Sim.runOneStep sampleLibm 5 sampleSim { sampleInput with sourceAmbient := -150 } = .ok s' ∧
      (s'.st 0).isOn = true ∧ (s'.st 0).lockedOut = true ∧ (s'.st 0).runtime_min = 0 ∧ (s'.st 1).runtime_min = 1 ∧
      (s'.st 1).energyOutput_kWh = 9 / 2 * (1 / 60) :=
  ⟨sampleSim_any_air _, by decide +kernel⟩

/-- `sampleSim` with the heat pump on, and a setpoint the water almost has. -/
def endingSim : Sim 3 2 :=
  { sampleSim with
    setpoint := 41, tank := { sampleSim.tank with nodeTs := fun _ => 2049 / 50 }, isHeating := true
    st := ![⟨true, false, 0, 0, 0⟩, ⟨false, false, 0, 0, 0⟩] }

/-- A minute without draw, with air at temperature `air`. -/
def endingInput (air : ℚ) : Sim.StepInput :=
  { sampleInput with draw_L := 0, inletVol2_L := 0, extraHeat_W := [], sourceAmbient := air }

/-- Both ways to end a run occur. -/
example : ∃ s', Sim.runOneStep sampleLibm 5 endingSim (endingInput 15) = .ok s' ∧
    (s'.st 0).isOn = false ∧ (s'.st 0).lockedOut = false ∧ (s'.st 0).runtime_min < 1 := by
  decide +kernel

example : ∃ s', Sim.runOneStep sampleLibm 5 endingSim (endingInput (-150)) = .ok s' ∧
    (s'.st 0).isOn = false ∧ (s'.st 0).lockedOut = true ∧ 0 < (s'.st 1).runtime_min ∧ (s'.st 1).runtime_min < 1 := by
  decide +kernel

/-- The hypotheses are met. -/
example : PumpWithBackup endingSim 0 1 (9 / 2) ∧ OneAtMost endingSim ∧ (endingSim.st 0).isOn = true ∧
    (∀ c, (endingSim.cfg.src 0).kind = .condenser c → endingSim.setpoint ≤ c.maxSetpoint) ∧
    ∀ p, AfterDraw endingSim (endingInput (-150)) p → ¬ ToldToShutOff (endingSim.cfg.src 0) p := by
  refine ⟨sampleSim_served.of_cfg rfl, ⟨by decide +kernel, by decide +kernel⟩, rfl, ?_, ?_⟩
  · intro c hc
    obtain rfl : sampleCond = c := by injection hc
    decide +kernel
  · rintro p ⟨t, ht, hp⟩ hx
    have key : (do
        let t ← ({ endingSim.tank with outletT := 0, standbyLosses_kJ := 0 } : Tank 3).updateNodes
          (endingSim.cfg.minutesPerStep / 60) (60 * endingSim.cfg.minutesPerStep) (endingInput (-150)).draw_L endingSim.inletT
          (endingSim.tankAirT (endingInput (-150))) (endingInput (-150)).inletVol2_L (endingInput (-150)).inletT2
        let p ← ({ endingSim.resetOutputs.toPlant with tank := t } : Plant 3).updateSoC
        (endingSim.cfg.src 0).shutsOff p) = .ok false := by
      decide +kernel
    unfold Sim.DrawnTank at ht
    obtain ⟨t', e, key⟩ := (bind_ok_iff _ _ _).mp key
    obtain rfl := Except.ok.inj (ht.symm.trans e)
    obtain ⟨p', e, key⟩ := (bind_ok_iff _ _ _).mp key
    obtain rfl := Except.ok.inj (hp.symm.trans e)
    have := (shutsOff_iff _ _ _ key).mpr hx
    cases this

/-- A signal that locks the elements out leaves nothing to stand in. -/
example : ∃ s', Sim.runOneStep sampleLibm 5 sampleSim
      { sampleInput with sourceAmbient := -150, dr := ⟨false, true, false, false⟩ } = .ok s' ∧
    (s'.st 0).isOn = true ∧ (s'.st 0).lockedOut = true ∧ (s'.st 0).runtime_min = 0 ∧ (s'.st 1).runtime_min = 0 := by
  decide +kernel

end HPWH
