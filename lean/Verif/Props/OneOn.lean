import Verif.Spec.OneOn
import Verif.Props.Priority

/-! # C111: one heat source at a time -/

namespace HPWH

open Spec
open _root_.HPWH.Units

variable {n k : ℕ}

theorem Spec.NoCompanions.of_cfg {s s' : Sim n k} (h : NoCompanions s) (e : s'.cfg = s.cfg) : NoCompanions s' :=
  ⟨by rw [e]; exact h.noCompanion, by rw [e]; exact h.priority⟩

/-! ## Choosing -/

theorem chooseLoop_lone {dr : DR} (hlor : dr.lor = false) : ∀ (is : List (Fin k)) (s s' : Sim n k), NoCompanions s →
    OneAtMost s → s.chooseLoop dr is = .ok s' → OneAtMost s'
  | [], s, s', _, h, h1 => by cases h1; exact h
  | j :: is, s, s', hp, h, h1 => by
    rw [Sim.chooseLoop] at h1
    obtain ⟨r, h2, h1⟩ := (bind_ok_iff _ _ _).mp h1
    have a : OneAtMost r.1 := by
      unfold Sim.chooseBody at h2
      by_cases hh : s.isHeating = true
      · rw [if_pos hh] at h2
        obtain ⟨s1, h3, h2⟩ := (bind_ok_iff _ _ _).mp h2
        have a1 := handOver_lone hp.noCompanion h h3
        cases hv : (s.cfg.src j).isVIP with
        | false => rw [hv] at h2; cases h2; exact a1
        | true =>
          rw [hv, if_pos rfl] at h2
          obtain ⟨want, -, h2⟩ := (bind_ok_iff _ _ _).mp h2
          cases want with
          | false => cases h2; exact a1
          | true =>
            obtain ⟨w, hw⟩ := hp.priority j hv
            have hdr : shouldDRLockOut (s.cfg.src j).kind dr = false := by rw [hw]; exact hlor
            rw [if_pos rfl, hdr, if_neg (by decide)] at h2
            have hc : s1.turnAllOff.cfg = s.cfg := (CtrlEq.handOver h3).cfg
            rw [engage_alone (s := s1.turnAllOff) (by rw [hc]; exact hp.noCompanion j)] at h2
            cases h2
            exact OneAtMost.switched fun l hl => by cases hl
      · rw [if_neg hh] at h2
        obtain ⟨want, -, h2⟩ := (bind_ok_iff _ _ _).mp h2
        cases want with
        | false => cases h2; exact h
        | true =>
          rw [if_pos rfl, engage_alone (hp.noCompanion j)] at h2
          cases h2
          exact OneAtMost.switched fun l hl => absurd (h.known l hl) hh
    cases hr : r.2 with
    | true => rw [hr] at h1; cases h1; exact a
    | false =>
      rw [hr] at h1
      exact chooseLoop_lone hlor is _ s' (hp.of_cfg (CtrlEq.chooseBody h2).cfg) a h1

/-! ## Heating -/

theorem setSt_locked_on {s : Sim n k} {b : Fin k} {x : Bool} (l : Fin k) :
    ((s.setSt b { s.st b with lockedOut := x }).st l).isOn = (s.st l).isOn := by
  by_cases e : l = b
  · subst e; simp [Sim.setSt]
  · simp [Sim.setSt, e]

theorem pickSource_on {dr : DR} {amb : ℚ} {s : Sim n k} {i : Fin k} {q : Sim n k × Option (Fin k)}
    (h : s.pickSource dr amb i = .ok q) (l : Fin k) : (q.1.st l).isOn = (s.st l).isOn := by
  unfold Sim.pickSource at h
  split_ifs at h with hl
  · split at h
    · cases h; rfl
    · rename_i b hb
      obtain ⟨r, hr, h⟩ := (bind_ok_iff _ _ _).mp h
      have : (r.1.st l).isOn = (s.st l).isOn := by
        unfold Sim.backupBarred at hr
        dsimp only at hr
        split at hr
        · obtain ⟨x, hx, hr⟩ := (bind_ok_iff _ _ _).mp hr
          obtain ⟨y, rfl⟩ := toLockOrUnlock_on hx
          cases hr
          exact setSt_locked_on l
        · split at hr <;> (cases hr; rfl)
      split_ifs at h <;> (cases h; exact this)
  · cases h; rfl

theorem backupFree_on {dr : DR} {amb : ℚ} {s : Sim n k} {b : Fin k} {q : Sim n k × Bool}
    (h : s.backupFree dr amb b = .ok q) (l : Fin k) : (q.1.st l).isOn = (s.st l).isOn := by
  unfold Sim.backupFree at h
  dsimp only at h
  split at h
  · obtain ⟨x, hx, h⟩ := (bind_ok_iff _ _ _).mp h
    obtain ⟨y, rfl⟩ := toLockOrUnlock_on hx
    cases h
    exact setSt_locked_on l
  · cases h; rfl

theorem addHeatParent_on {m : Libm} {fuel : ℕ} {s s' : Sim n k} {j : Fin k} {amb minutes : ℚ}
    (h : s.addHeatParent m fuel j amb minutes = .ok s') (l : Fin k) : (s'.st l).isOn = (s.st l).isOn := by
  obtain ⟨f1, f2, -⟩ := addHeatParent_only h
  by_cases e : l = j
  · subst e; exact f2
  · rw [f1 l e]

/-- At most one heat source is on. -/
def Sole (s : Sim n k) : Prop := ∀ l l', (s.st l).isOn = true → (s.st l').isOn = true → l = l'

theorem Sole.of_on {s s' : Sim n k} (h : Sole s) (e : ∀ l, (s'.st l).isOn = (s.st l).isOn) : Sole s' := fun l l' hl hl' =>
  h l l' (by rw [← e]; exact hl) (by rw [← e]; exact hl')

/-- After an early finish at most one heat source is on if only the one that finished was. -/
theorem afterEarly_sole {m : Libm} {fuel : ℕ} {dr : DR} {amb minutes : ℚ} {s s' : Sim n k} {j : Fin k}
    (hp : NoCompanions s) (ho : ∀ l, (s.st l).isOn = true → l = j) (h : Sim.afterEarly m fuel dr amb s j minutes = .ok s') :
    Sole s' := by
  have off : ∀ l, ((s.disengage j).st l).isOn = false := fun l => by
    by_contra hc
    obtain ⟨a, b⟩ := disengage_on.mp (by simpa using hc)
    exact a (ho l b)
  have none_on : ∀ {x : Sim n k}, (∀ l, (x.st l).isOn = false) → Sole x := fun hx l l' hl => by rw [hx l] at hl; cases hl
  have one_on : ∀ {x : Sim n k} (f : Fin k), (∀ l, (x.st l).isOn = false) → Sole (x.switched f) := fun f hx l l' hl hl' => by
    rcases switched_on.mp hl with rfl | hl
    · rcases switched_on.mp hl' with rfl | hl'
      · rfl
      · rw [hx] at hl'; cases hl'
    · rw [hx] at hl; cases hl
  unfold Sim.afterEarly at h
  dsimp only at h
  obtain ⟨fo, hfo, h⟩ := (bind_ok_iff _ _ _).mp h
  cases fo with
  | some f =>
    dsimp only at h
    rw [engage_alone (s := s.disengage j) (hp.noCompanion f)] at h
    cases h
    exact one_on f off
  | none =>
    dsimp only at h
    obtain ⟨mx, -, h⟩ := (bind_ok_iff _ _ _).mp h
    split at h
    · rename_i b _
      unfold Sim.runBackup at h
      obtain ⟨r, h1, h⟩ := (bind_ok_iff _ _ _).mp h
      have offr : ∀ l, (r.1.st l).isOn = false := fun l => (backupFree_on h1 l).trans (off l)
      have hc : r.1.cfg = s.cfg := (CtrlEq.backupFree h1).cfg
      split_ifs at h
      · obtain ⟨s1, h3, h⟩ := (bind_ok_iff _ _ _).mp h
        rw [engage_alone (by rw [hc]; exact hp.noCompanion b)] at h3
        cases h3
        split_ifs at h
        · exact (one_on b offr).of_on (addHeatParent_on h)
        · cases h; exact one_on b offr
      · cases h; exact none_on offr
    · cases h; exact none_on off

theorem heatBody_sole {m : Libm} {fuel : ℕ} {dr : DR} {amb minutes : ℚ} {s : Sim n k} {j : Fin k} {r : Sim n k × ℚ}
    (hp : NoCompanions s) (ha : Sole s) (h : Sim.heatBody m fuel dr amb s j minutes = .ok r) : Sole r.1 := by
  by_cases hon : (s.st j).isOn = true
  · unfold Sim.heatBody at h
    obtain ⟨s1, h1, h⟩ := (bind_ok_iff _ _ _).mp h
    have c1 := (CtrlEq.applyLocks h1).cfg
    obtain ⟨x, y, e1, -, -⟩ := applyLocks_only h1
    have only1 : ∀ l, (s1.st l).isOn = true → l = j := fun l hl => by
      by_contra e
      have : s1.st l = s.st l := by rw [e1]; exact Function.update_of_ne e _ _
      rw [this] at hl
      exact e (ha l j hl hon)
    have sole : ∀ {x : Sim n k}, (∀ l, (x.st l).isOn = (s1.st l).isOn) → Sole x := fun hx l l' hl hl' => by
      rw [only1 l (by rw [← hx]; exact hl), only1 l' (by rw [← hx]; exact hl')]
    split_ifs at h
    · obtain ⟨q, h2, h⟩ := (bind_ok_iff _ _ _).mp h
      have hq := pickSource_on h2
      have hqc := (CtrlEq.pickSource h2).cfg
      split at h
      · cases h; exact sole hq
      · rename_i v _
        unfold Sim.runSource at h
        obtain ⟨s2, h3, h⟩ := (bind_ok_iff _ _ _).mp h
        have on2 : ∀ l, (s2.st l).isOn = (s1.st l).isOn := fun l => (addHeatParent_on h3 l).trans (hq l)
        split_ifs at h
        · obtain ⟨s3, h4, h⟩ := (bind_ok_iff _ _ _).mp h
          cases h
          exact afterEarly_sole (hp.of_cfg ((addHeatParent_cfg h3).trans (hqc.trans c1)))
            (fun l hl => only1 l (by rw [← on2]; exact hl)) h4
        · cases h; exact sole on2
    · cases h; exact sole fun _ => rfl
  · exact ha.of_on fun l => ((heatBody_off (by simpa using hon) h).2.1 l).1

theorem heatSrcLoop_sole {m : Libm} {fuel : ℕ} {dr : DR} {amb : ℚ} : ∀ (is : List (Fin k)) (s s' : Sim n k) (minutes : ℚ),
    NoCompanions s → Sole s → Sim.heatSrcLoop m fuel dr amb is s minutes = .ok s' → Sole s'
  | [], s, s', _, _, h, h1 => by cases h1; exact h
  | j :: is, s, s', minutes, hp, h, h1 => by
    rw [Sim.heatSrcLoop] at h1
    obtain ⟨r, h2, h1⟩ := (bind_ok_iff _ _ _).mp h1
    exact heatSrcLoop_sole is r.1 s' r.2 (hp.of_cfg (heatBody_keeps_cfg h2)) (heatBody_sole hp h h2) h1

theorem control_sole {m : Libm} {fuel : ℕ} {dr : DR} {amb : ℚ} {s s' : Sim n k} (hp : NoCompanions s) (h1 : OneAtMost s)
    (hd : PlainSignal dr) (h : Sim.control m fuel dr amb s = .ok s') : Sole s' := by
  unfold Sim.control at h
  obtain ⟨s1, h2, h⟩ := (bind_ok_iff _ _ _).mp h
  have hst : s'.st = s1.st := by
    rw [← Except.ok.inj h]
    split_ifs <;> rfl
  unfold Sole
  rw [hst]
  unfold Sim.normalControl at h2
  by_cases hb : (dr.loc && dr.lor) = true
  · rw [if_pos hb] at h2
    rw [← Except.ok.inj h2]
    intro l l' hl
    cases hl
  rw [if_neg hb] at h2
  obtain ⟨a, ha, h2⟩ := (bind_ok_iff _ _ _).mp h2
  obtain ⟨c, hc, h2⟩ := (bind_ok_iff _ _ _).mp h2
  have ea : a = s := by
    unfold Sim.topOff at ha
    rw [hd.1, hd.2.1] at ha
    exact (Except.ok.inj ha).symm
  subst ea
  have hlor : dr.lor = false := by
    by_contra hl
    have hl : dr.lor = true := by simpa using hl
    exact hb (by rw [hd.2.2 hl, hl]; rfl)
  exact heatSrcLoop_sole _ _ _ _ (hp.of_cfg (CtrlEq.chooseLoop hc).cfg) (chooseLoop_lone hlor _ _ _ hp h1 hc).alone h2

/-! ## Sharing the time -/

/-- During the heating of a step: `is` are the heat sources still to be visited, `minutes` the time left. -/
structure ShareInv (s0 : Sim n k) (lo : ℚ) (hi : WithTop ℚ) (is : List (Fin k)) (s : Sim n k) (minutes : ℚ) : Prop where
  step : StepInv s0 s lo hi
  sole : Sole s
  nonneg : 0 ≤ minutes
  le : minutes ≤ s0.cfg.minutesPerStep
  fresh : ∀ i ∈ is, (s.st i).runtime_min = 0
  total : ∑ i, (s.st i).runtime_min ≤ s0.cfg.minutesPerStep
  left : ∑ i, (s.st i).runtime_min + minutes ≤ s0.cfg.minutesPerStep ∨ ∀ i ∈ is, (s.st i).isOn = false

theorem afterEarly_ctrl {m : Libm} {fuel : ℕ} {dr : DR} {amb minutes : ℚ} {s s' : Sim n k} {j : Fin k}
    (hp : NoCompanions s) (hb : (s.cfg.src j).backup = none) (h : Sim.afterEarly m fuel dr amb s j minutes = .ok s') :
    CtrlEq s s' := by
  unfold Sim.afterEarly at h
  dsimp only at h
  obtain ⟨fo, hfo, h⟩ := (bind_ok_iff _ _ _).mp h
  cases fo with
  | some f =>
    dsimp only at h
    rw [engage_alone (s := s.disengage j) (hp.noCompanion f)] at h
    cases h
    exact (CtrlEq.disengage s j).trans ((CtrlEq.setSt _ f true _).trans (CtrlEq.heating _ _))
  | none =>
    dsimp only at h
    obtain ⟨mx, -, h⟩ := (bind_ok_iff _ _ _).mp h
    rw [hb] at h
    cases mx <;> (cases h; exact CtrlEq.disengage s j)

theorem heatBody_share {m : Libm} (hexp : ∀ x, 0 ≤ m.exp x) {fuel : ℕ} {dr : DR} {amb : ℚ} {s0 s : Sim n k} {lo : ℚ}
    {hi : WithTop ℚ} (hS : ∀ j, (s0.cfg.src j).Sound s0.setpoint amb lo hi) (hn : n + 1 ≤ 10000)
    (ht : s0.tank.Consistent) (hmix : s0.tank.doInversionMixing = true) (hset : (s0.setpoint : WithTop ℚ) ≤ hi)
    (habs : Sim.noSetpoint < s0.setpoint) (hp : NoCompanions s0) (hb : ∀ i, (s0.cfg.src i).backup = none) {i : Fin k}
    {is : List (Fin k)} (hnd : (i :: is).Nodup) {minutes : ℚ} (inv : ShareInv s0 lo hi (i :: is) s minutes) {r : Sim n k × ℚ}
    (h : s.heatBody m fuel dr amb i minutes = .ok r) : ShareInv s0 lo hi is r.1 r.2 := by
  have hps : NoCompanions s := hp.of_cfg inv.step.cfg
  have hni : i ∉ is := (List.nodup_cons.mp hnd).1
  have sole := heatBody_sole hps inv.sole h
  unfold Sim.heatBody at h
  obtain ⟨s1, h1, h⟩ := (bind_ok_iff _ _ _).mp h
  have c1 := CtrlEq.applyLocks h1
  have st1 := inv.step.ctrl c1
  obtain ⟨x, y, e1, hy, -⟩ := applyLocks_only h1
  have sub1 : ∀ l, (s1.st l).isOn = true → (s.st l).isOn = true := fun l hl => by
    rw [e1] at hl
    by_cases e : l = i
    · subst e
      refine hy ?_
      simpa [Sim.setSt] using hl
    · have : ((s.setSt i { s.st i with lockedOut := x, isOn := y }).st l) = s.st l := Function.update_of_ne e _ _
      rw [this] at hl
      exact hl
  have sum1 : ∑ i, (s1.st i).runtime_min = ∑ i, (s.st i).runtime_min := Finset.sum_congr rfl fun j _ => c1.runtime j
  by_cases hon : (s1.st i).isOn = true
  · rw [if_pos hon] at h
    have hleft : ∑ i, (s1.st i).runtime_min + minutes ≤ s0.cfg.minutesPerStep := by
      rw [sum1]
      rcases inv.left with h | h
      · exact h
      · exact absurd (sub1 i hon) (by rw [h i (List.mem_cons_self ..)]; simp)
    obtain ⟨p, hpk, h⟩ := (bind_ok_iff _ _ _).mp h
    have hb1 : (s1.cfg.src i).backup = none := by rw [st1.cfg]; exact hb i
    have ep : p = (s1, some i) := by
      unfold Sim.pickSource at hpk
      rw [hb1] at hpk
      split_ifs at hpk <;> (cases hpk; rfl)
    subst ep
    dsimp only at h
    unfold Sim.runSource at h
    obtain ⟨s2, h2, h⟩ := (bind_ok_iff _ _ _).mp h
    obtain ⟨st2, r0, rM⟩ := StepInv.heat hexp (hS i) hn ht hmix hset habs st1 inv.nonneg inv.le h2
    obtain ⟨other, on2, -⟩ := addHeatParent_only h2
    have hz : (s1.st i).runtime_min = 0 := by
      rw [c1.runtime]; exact inv.fresh i (List.mem_cons_self ..)
    have hstate : s2.st = Function.update s1.st i (s2.st i) := by
      funext l
      by_cases e : l = i
      · subst e; simp
      · rw [other l e, Function.update_of_ne e]
    have sum2 : ∑ j, (s2.st j).runtime_min = ∑ j, (s1.st j).runtime_min + (s2.st i).runtime_min := by
      rw [hstate, sum_runtime_update, hz]
      simp
    have onOther : ∀ j, j ≠ i → (s2.st j).isOn = false := fun j hj => by
      rw [other j hj]
      by_contra hc
      exact hj (inv.sole j i (sub1 j (by simpa using hc)) (sub1 i hon))
    have hfr : ∀ j ∈ is, (s2.st j).runtime_min = 0 := fun j hj => by
      have hji : j ≠ i := fun e => hni (e ▸ hj)
      rw [other j hji, c1.runtime]
      exact inv.fresh j (List.mem_cons_of_mem _ hj)
    by_cases hlt : (s2.st i).runtime_min < minutes
    · rw [if_pos hlt] at h
      obtain ⟨s3, h3, h⟩ := (bind_ok_iff _ _ _).mp h
      cases h
      have c3 := afterEarly_ctrl (hp.of_cfg st2.cfg) (by rw [st2.cfg]; exact hb i) h3
      have sum3 : ∑ j, (s3.st j).runtime_min = ∑ j, (s2.st j).runtime_min :=
        Finset.sum_congr rfl fun j _ => c3.runtime j
      refine ⟨st2.ctrl c3, sole, by linarith, by linarith [inv.le], fun j hj => by rw [c3.runtime]; exact hfr j hj,
        ?_, .inl ?_⟩
      · rw [sum3, sum2]; linarith
      · rw [sum3, sum2]; linarith
    · rw [if_neg hlt] at h
      cases h
      refine ⟨st2, sole, inv.nonneg, inv.le, hfr, ?_, .inr fun j hj => ?_⟩
      · rw [sum2]; linarith
      · exact onOther j fun e => hni (e ▸ hj)
  · rw [if_neg hon] at h
    cases h
    refine ⟨st1, sole, inv.nonneg, inv.le, fun j hj => by rw [c1.runtime]; exact inv.fresh j (List.mem_cons_of_mem _ hj),
      by rw [sum1]; exact inv.total, ?_⟩
    rcases inv.left with h | h
    · left; rw [sum1]; exact h
    · right
      intro j hj
      by_contra hc
      have := sub1 j (by simpa using hc)
      rw [h j (List.mem_cons_of_mem _ hj)] at this
      cases this

theorem heatSrcLoop_share {m : Libm} (hexp : ∀ x, 0 ≤ m.exp x) {fuel : ℕ} {dr : DR} {amb : ℚ} {s0 : Sim n k} {lo : ℚ}
    {hi : WithTop ℚ} (hS : ∀ j, (s0.cfg.src j).Sound s0.setpoint amb lo hi) (hn : n + 1 ≤ 10000)
    (ht : s0.tank.Consistent) (hmix : s0.tank.doInversionMixing = true) (hset : (s0.setpoint : WithTop ℚ) ≤ hi)
    (habs : Sim.noSetpoint < s0.setpoint) (hp : NoCompanions s0) (hb : ∀ i, (s0.cfg.src i).backup = none) :
    ∀ {is : List (Fin k)}, is.Nodup → ∀ {s : Sim n k} {minutes : ℚ}, ShareInv s0 lo hi is s minutes → ∀ {s' : Sim n k},
      s.heatSrcLoop m fuel dr amb is minutes = .ok s' → ∑ i, (s'.st i).runtime_min ≤ s0.cfg.minutesPerStep
  | [], _, s, minutes, inv, s', h => by cases h; exact inv.total
  | i :: is, hnd, s, minutes, inv, s', h => by
    rw [Sim.heatSrcLoop] at h
    obtain ⟨r, h1, h⟩ := (bind_ok_iff _ _ _).mp h
    exact heatSrcLoop_share hexp hS hn ht hmix hset habs hp hb (List.nodup_cons.mp hnd).2
      (heatBody_share hexp hS hn ht hmix hset habs hp hb hnd inv h1) h

/-! ## C111 -/

/-- **C111.** In a water heater without companions at most one heat source is on after any sequence of steps, whatever its
heat sources, control logics, backups, followers and priorities, and whatever the inputs, if there was no signal to top off
and none that locks out the elements alone. -/
theorem C111_one_on (m : Libm) (fuel N : ℕ) (s : ℕ → Sim n k) (u : ℕ → Sim.StepInput) (h : Sim.History m fuel N s u)
    (hp : NoCompanions (s 0)) (h1 : OneAtMost (s 0)) (hd : ∀ t < N, PlainSignal (u t).dr) :
    ∀ t ≤ N, NoCompanions (s t) ∧ OneAtMost (s t) := by
  intro t
  induction t with
  | zero => exact fun _ => ⟨hp, h1⟩
  | succ t ih =>
    intro ht
    obtain ⟨ip, io⟩ := ih (by omega)
    have hst := h t (by omega)
    have hflag := C91_flag m fuel _ _ _ io.known hst
    obtain ⟨-, s0, s1, s2, hs, hctl, h2, e⟩ := runOneStep_ok hst
    obtain ⟨x1, x2, -⟩ := extraStep_frame h2
    obtain ⟨-, g2, -, -, -, g6, -, -⟩ := finish_facts s2 (u t).tankAmbient (u t).dr
    have hone : OneAtMost s0 := by
      refine ⟨fun a c ha hc => io.alone a c ?_ ?_, fun a ha => ?_⟩
      · rw [hs.st] at ha; exact ha
      · rw [hs.st] at hc; exact hc
      · rw [hs.isHeating]
        rw [hs.st] at ha
        exact io.known a ha
    have key := control_sole (ip.of_cfg hs.cfg) hone (hd t (by omega)) hctl
    refine ⟨ip.of_cfg (by rw [e, g2, x1, (control_frame hctl).cfg, hs.cfg]), fun l l' hl hl' => ?_, fun l hl => hflag.mpr ⟨l, hl⟩⟩
    rw [e, (g6 _).2.2.1, x2] at hl hl'
    exact key l l' hl hl'

/-- **C111.** Without backups the heat sources share the time of a step: their run times add up to the step at most. -/
theorem C111_share (m : Libm) (hexp : ∀ x, 0 ≤ m.exp x) (fuel : ℕ) (s s' : Sim n k) (u : Sim.StepInput) (lo : ℚ)
    (hi : WithTop ℚ) (ha : s.Accountable u lo hi) (hp : NoCompanions s) (hb : ∀ i, (s.cfg.src i).backup = none)
    (h1 : OneAtMost s) (hd : PlainSignal u.dr) (h : Sim.runOneStep m fuel s u = .ok s') :
    ∑ i, (s'.st i).runtime_min ≤ s.cfg.minutesPerStep := by
  obtain ⟨-, s0, s1, s2, hs, hctl, h2, rfl⟩ := runOneStep_ok h
  have hw := ha.wellFormed
  have hdrawn := hs.drawn
  unfold Sim.DrawnTank at hdrawn
  have hw0 : Tank.WellFormed { s.tank with outletT := 0, standbyLosses_kJ := 0 } := hw.of_cfg rfl
  obtain ⟨f1, f2⟩ := updateNodes_facts _ _ hw0 _ _ _ _ _ _ _ ha.draw hdrawn
  have hcfg0 : s0.tank.toTankCfg = s.tank.toTankCfg := f1
  have hws : s0.tank.WellFormed := hw.of_cfg hcfg0
  have hr := ha.range _ hs.drawn
  have hstep : 0 ≤ s0.cfg.minutesPerStep := by rw [hs.cfg]; exact ha.step
  have hp0 : NoCompanions s0 := hp.of_cfg hs.cfg
  have h10 : OneAtMost s0 := ⟨fun i j hi hj => h1.alone i j (by rw [hs.st] at hi; exact hi) (by rw [hs.st] at hj; exact hj),
    fun i hi => by rw [hs.isHeating]; exact h1.known i (by rw [hs.st] at hi; exact hi)⟩
  have hclear : ∀ i, (s0.st i).runtime_min = 0 := fun i => by rw [hs.st]; rfl
  obtain ⟨-, x2, -⟩ := extraStep_frame h2
  obtain ⟨-, -, -, -, -, g6, -, -⟩ := finish_facts s2 u.tankAmbient u.dr
  unfold Sim.control at hctl
  obtain ⟨s3, h3, hctl⟩ := (bind_ok_iff _ _ _).mp hctl
  have hst : s1.st = s3.st := by
    rw [← Except.ok.inj hctl]
    split_ifs <;> rfl
  have goal : ∑ i, (s3.st i).runtime_min ≤ s0.cfg.minutesPerStep := by
    unfold Sim.normalControl at h3
    by_cases hbo : (u.dr.loc && u.dr.lor) = true
    · rw [if_pos hbo] at h3
      rw [← Except.ok.inj h3]
      refine (Finset.sum_eq_zero fun j _ => ?_).trans_le hstep
      exact hclear j
    rw [if_neg hbo] at h3
    obtain ⟨a, ha1, h3⟩ := (bind_ok_iff _ _ _).mp h3
    obtain ⟨c, hcl, h3⟩ := (bind_ok_iff _ _ _).mp h3
    have ea : a = s0 := by
      unfold Sim.topOff at ha1
      rw [hd.1, hd.2.1] at ha1
      exact (Except.ok.inj ha1).symm
    subst ea
    have hlor : u.dr.lor = false := by
      by_contra hl
      have hl : u.dr.lor = true := by simpa using hl
      exact hbo (by rw [hd.2.2 hl, hl]; rfl)
    have cc := CtrlEq.chooseLoop hcl
    have al := chooseLoop_lone hlor _ _ _ hp0 h10 hcl
    have hz : ∑ i, (c.st i).runtime_min = 0 := Finset.sum_eq_zero fun j _ => by rw [cc.runtime]; exact hclear j
    have hi0 : StepInv a a lo hi := StepInv.init a lo hi (f2 ha.mixing) (fun j => (hr j).1) (fun j => (hr j).2)
      (fun i => by rw [hs.st]; rfl) hstep
    have start : ShareInv a lo hi (List.finRange k) c a.cfg.minutesPerStep :=
      ⟨hi0.ctrl cc, al.alone, hstep, le_rfl, fun j _ => by rw [cc.runtime]; exact hclear j,
        by rw [hz]; exact hstep, .inl (by rw [hz]; linarith)⟩
    exact heatSrcLoop_share hexp (fun j => by rw [hs.cfg, hs.setpoint]; exact ha.sound j) ha.nodes
      hws.toConsistent (by rw [hcfg0]; exact ha.mixing) (by rw [hs.setpoint]; exact ha.setpoint)
      (by rw [hs.setpoint]; exact ha.absolute) hp0 (by rw [hs.cfg]; exact hb) (List.nodup_finRange k) start h3
  rw [hs.cfg] at goal
  refine le_trans (le_of_eq (Finset.sum_congr rfl fun i _ => ?_)) goal
  rw [(g6 i).1, x2, hst]

/-- Three minutes, in the second of which heat pumps are locked out. -/
def hybridInput (t : ℕ) : Sim.StepInput :=
  { sampleInput with extraHeat_W := [], draw_L := if t = 2 then 0 else 8, dr := ⟨t = 1, false, false, false⟩ }

/-- The states of `hybridSim` in these minutes. -/
def hybridStates : ℕ → Sim 3 2
  | 0 => hybridSim
  | t + 1 => ((Sim.runOneStep sampleLibm 5 (hybridStates t) (hybridInput t)).toOption).getD hybridSim

theorem eq_ok_of_toOption {α : Type} {x : Res α} {d : α} (h : x.toOption.isSome = true) : x = .ok (x.toOption.getD d) := by
  cases x with
  | ok a => rfl
  | error e => cases h

/-- The heat pump is on first and the element, which has priority, takes over. -/
example : Sim.History sampleLibm 5 3 hybridStates hybridInput ∧ NoCompanions (hybridStates 0) ∧
    OneAtMost (hybridStates 0) ∧ (∀ t < 3, PlainSignal (hybridInput t).dr) ∧ ((hybridStates 0).st 0).isOn = true ∧
    ((hybridStates 3).st 1).isOn = true ∧ ((hybridStates 3).st 0).isOn = false := by
  refine ⟨fun t ht => ?_, ⟨by decide +kernel, fun j hj => ?_⟩, ⟨by decide +kernel, by decide +kernel⟩,
    fun t _ => ⟨rfl, rfl, fun h => by cases h⟩, rfl, by decide +kernel, by decide +kernel⟩
  · refine eq_ok_of_toOption ?_
    have : ∀ t < 3, (Sim.runOneStep sampleLibm 5 (hybridStates t) (hybridInput t)).toOption.isSome = true := by
      decide +kernel
    exact this t ht
  · fin_cases j
    · cases hj
    · exact ⟨_, rfl⟩

/-- `hybridSim` without backup. -/
def sharingSim : Sim 3 2 :=
  { hybridSim with
    cfg := { hybridSim.cfg with src := ![{ hybridSim.cfg.src 0 with backup := none }, hybridSim.cfg.src 1] } }

/-- Its heat pump was on; the element takes over and has all the time of the step. -/
example : sharingSim.Accountable { sampleInput with extraHeat_W := [] } 0 ⊤ ∧ NoCompanions sharingSim ∧
    (∀ i, (sharingSim.cfg.src i).backup = none) ∧ OneAtMost sharingSim ∧ PlainSignal sampleInput.dr ∧
    ∃ s', Sim.runOneStep sampleLibm 5 sharingSim { sampleInput with extraHeat_W := [] } = .ok s' ∧
      ∑ i, (s'.st i).runtime_min = 1 := by
  refine ⟨{ sampleSim_accountable with extra := by decide +kernel, sound := ?_ }, ⟨by decide +kernel, fun j hj => ?_⟩,
    by decide +kernel, ⟨by decide +kernel, by decide +kernel⟩, ⟨rfl, rfl, fun h => by cases h⟩, by decide +kernel⟩
  · intro i
    match i with
    | 0 => exact { sampleSim_sound _ _ _ _ 0 with }
    | 1 =>
      refine ⟨fun p hp => ?_, fun c hc _ => ?_, fun c hc hx => ?_, fun c hc _ _ w perf _ _ h => ?_⟩
      · injection hp with hp
        rw [← hp]
        exact ⟨by norm_num, by decide +kernel, by decide +kernel⟩
      all_goals cases hc
  · fin_cases j
    · cases hj
    · exact ⟨_, rfl⟩

/-- With a signal to top off both heat sources are on. -/
example : ∃ s', Sim.runOneStep sampleLibm 5 sampleSim { sampleInput with dr := ⟨false, false, true, false⟩ } = .ok s' ∧
    (s'.st 0).isOn = true ∧ (s'.st 1).isOn = true := by
  decide +kernel

end HPWH
