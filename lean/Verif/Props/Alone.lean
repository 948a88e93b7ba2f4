import Verif.Spec.Alone
import Verif.Props.Rated
import Verif.Props.Run
import Verif.Props.Init
import Verif.Props.DayExample
import Mathlib.Tactic.FinCases

/-! # C82: elements take turns -/

namespace HPWH

open Spec
open _root_.HPWH.Units

variable {n k : ℕ}

/-! ## Choosing -/

/-- Switched on without a companion. -/
def Sim.switched (s : Sim n k) (i : Fin k) : Sim n k :=
  { s.setSt i { s.st i with isOn := true } with isHeating := true }

theorem engage_alone {dr : DR} {s : Sim n k} {i : Fin k} (h : (s.cfg.src i).companion = none) :
    s.engage dr i = .ok (s.switched i) := by
  unfold Sim.engage Sim.engageAux
  simp only [h]
  rfl

theorem switched_on {s : Sim n k} {i j : Fin k} :
    ((s.switched i).st j).isOn = true ↔ j = i ∨ (s.st j).isOn = true := by
  unfold Sim.switched Sim.setSt
  by_cases h : j = i
  · subst h; simp
  · simp [h]

theorem disengage_on {s : Sim n k} {i j : Fin k} :
    ((s.disengage i).st j).isOn = true ↔ j ≠ i ∧ (s.st j).isOn = true := by
  unfold Sim.disengage Sim.setSt
  by_cases h : j = i
  · subst h; simp
  · simp [h]

theorem Spec.OneAtMost.switched {s : Sim n k} {i : Fin k} (h : ∀ j, (s.st j).isOn = true → j = i) :
    OneAtMost (s.switched i) := by
  have on : ∀ j, ((s.switched i).st j).isOn = true → j = i := fun j hj =>
    (switched_on.mp hj).elim id (h j)
  exact ⟨fun a b ha hb => (on a ha).trans (on b hb).symm, fun _ _ => rfl⟩

theorem Spec.OneAtMost.disengage {s : Sim n k} (h : OneAtMost s) (i : Fin k) : OneAtMost (s.disengage i) :=
  ⟨fun a b ha hb => h.alone a b (disengage_on.mp ha).2 (disengage_on.mp hb).2,
    fun a ha => h.known a (disengage_on.mp ha).2⟩

theorem Spec.ElementsOnly.of_cfg {s s' : Sim n k} (h : ElementsOnly s) (e : s'.cfg = s.cfg) : ElementsOnly s' :=
  ⟨by rw [e]; exact h.element, by rw [e]; exact h.noBackup, by rw [e]; exact h.noCompanion,
    by rw [e]; exact h.noCompressor⟩

theorem handOver_alone {dr : DR} {s s1 : Sim n k} {i : Fin k} (he : ElementsOnly s) (h : OneAtMost s)
    (h1 : s.handOver dr i = .ok s1) : OneAtMost s1 ∧ s1.cfg = s.cfg := by
  refine ⟨?_, (CtrlEq.handOver h1).cfg⟩
  unfold Sim.handOver at h1
  rw [he.noBackup] at h1
  obtain ⟨off, -, h1⟩ := (bind_ok_iff _ _ _).mp h1
  cases off
  · cases h1; exact h
  · cases h1; exact h.disengage i

theorem chooseBody_alone {dr : DR} {s : Sim n k} {i : Fin k} {r : Sim n k × Bool} (he : ElementsOnly s)
    (h : OneAtMost s) (h1 : s.chooseBody dr i = .ok r) : OneAtMost r.1 := by
  unfold Sim.chooseBody at h1
  by_cases hh : s.isHeating = true
  · rw [if_pos hh] at h1
    obtain ⟨s1, h2, h1⟩ := (bind_ok_iff _ _ _).mp h1
    obtain ⟨a1, a2⟩ := handOver_alone he h h2
    cases hv : (s.cfg.src i).isVIP with
    | false => rw [hv] at h1; cases h1; exact a1
    | true =>
      rw [hv, if_pos rfl] at h1
      obtain ⟨w, -, h1⟩ := (bind_ok_iff _ _ _).mp h1
      cases w with
      | false => cases h1; exact a1
      | true =>
        rw [if_pos rfl, he.noCompressor] at h1
        split_ifs at h1
        · cases h1; exact a1
        · rw [engage_alone (by show (s1.cfg.src i).companion = none; rw [a2]; exact he.noCompanion i)] at h1
          cases h1
          exact OneAtMost.switched fun j hj => by cases hj
  · rw [if_neg hh] at h1
    obtain ⟨w, -, h1⟩ := (bind_ok_iff _ _ _).mp h1
    cases w with
    | false => cases h1; exact h
    | true =>
      rw [if_pos rfl, engage_alone (he.noCompanion i)] at h1
      cases h1
      exact OneAtMost.switched fun j hj => absurd (h.known j hj) hh

theorem chooseLoop_alone {dr : DR} : ∀ (is : List (Fin k)) (s s' : Sim n k), ElementsOnly s → OneAtMost s →
    s.chooseLoop dr is = .ok s' → OneAtMost s'
  | [], s, s', _, h, h1 => by cases h1; exact h
  | i :: is, s, s', he, h, h1 => by
    rw [Sim.chooseLoop] at h1
    obtain ⟨r, h2, h1⟩ := (bind_ok_iff _ _ _).mp h1
    have a := chooseBody_alone he h h2
    cases hr : r.2 with
    | true => rw [hr] at h1; cases h1; exact a
    | false =>
      rw [hr] at h1
      exact chooseLoop_alone is _ s' (he.of_cfg (CtrlEq.chooseBody h2).cfg) a h1

/-! ## Heating -/

/-- During the heating of a step: `is` are the elements still to be visited, `minutes` the time left. -/
structure TurnInv (s0 : Sim n k) (lo : ℚ) (hi : WithTop ℚ) (is : List (Fin k)) (s : Sim n k) (minutes : ℚ) :
    Prop where
  step : StepInv s0 s lo hi
  alone : OneAtMost s
  nonneg : 0 ≤ minutes
  le : minutes ≤ s0.cfg.minutesPerStep
  fresh : ∀ i ∈ is, (s.st i).runtime_min = 0
  energy : ∀ i w, (s0.cfg.src i).kind = .resistance w → (s.st i).energyInput_kWh = w * ((s.st i).runtime_min / 60)
  total : ∑ i, (s.st i).runtime_min ≤ s0.cfg.minutesPerStep
  left : ∑ i, (s.st i).runtime_min + minutes ≤ s0.cfg.minutesPerStep ∨ ∀ i ∈ is, (s.st i).isOn = false

theorem applyLocks_alone {dr : DR} {amb : ℚ} {s s1 : Sim n k} {i : Fin k} (he : ElementsOnly s) (h : OneAtMost s)
    (h1 : s.applyLocks dr amb i = .ok s1) :
    OneAtMost s1 ∧ (∀ j, (s1.st j).isOn = true → (s.st j).isOn = true) ∧
      ((s1.st i).isOn = true → (s1.st i).lockedOut = false) := by
  have lk : ∀ (x : Bool), OneAtMost (s.setSt i { s.st i with lockedOut := x }) ∧
      (∀ j, ((s.setSt i { s.st i with lockedOut := x }).st j).isOn = (s.st j).isOn) ∧
      ((s.setSt i { s.st i with lockedOut := x }).st i).lockedOut = x := by
    intro x
    have on : ∀ j, ((s.setSt i { s.st i with lockedOut := x }).st j).isOn = (s.st j).isOn := by
      intro j
      unfold Sim.setSt
      by_cases hj : j = i
      · subst hj; simp
      · simp [hj]
    refine ⟨⟨fun a b ha hb => h.alone a b (by rw [← on]; exact ha) (by rw [← on]; exact hb), fun a ha => ?_⟩, on, ?_⟩
    · exact h.known a (by rw [← on]; exact ha)
    · unfold Sim.setSt; simp
  unfold Sim.applyLocks at h1
  obtain ⟨s2, h2, h1⟩ := (bind_ok_iff _ _ _).mp h1
  obtain ⟨w, hw⟩ := he.element i
  have h2' : ∃ x, s2 = s.setSt i { s.st i with lockedOut := x } := by
    unfold Sim.lockUnlock at h2
    rw [hw] at h2
    split_ifs at h2
    · cases h2; exact ⟨_, rfl⟩
    · cases h2; exact ⟨_, rfl⟩
  obtain ⟨x, rfl⟩ := h2'
  obtain ⟨a, on, lo⟩ := lk x
  rw [he.noBackup, lo] at h1
  cases x with
  | true =>
    cases h1
    refine ⟨a.disengage i, fun j hj => ?_, fun hi => absurd rfl (disengage_on.mp hi).1⟩
    rw [← on]
    exact (disengage_on.mp hj).2
  | false =>
    cases h1
    exact ⟨a, fun j hj => by rw [← on]; exact hj, fun _ => lo⟩

theorem sum_runtime_update {k : ℕ} (st : Fin k → SourceState) (j : Fin k) (x : SourceState) :
    ∑ i, (Function.update st j x i).runtime_min = ∑ i, (st i).runtime_min - (st j).runtime_min + x.runtime_min := by
  have := sum_update_sub SourceState.runtime_min st st j x
  simp only [Finset.sum_sub_distrib, Finset.sum_const_zero, zero_add, sub_self] at this
  linarith

theorem heatBody_alone {m : Libm} (hexp : ∀ x, 0 ≤ m.exp x) {fuel : ℕ} {dr : DR} {amb : ℚ} {s0 s : Sim n k} {lo : ℚ}
    {hi : WithTop ℚ} (hS : ∀ j, (s0.cfg.src j).Sound s0.setpoint amb lo hi) (hn : n + 1 ≤ 10000)
    (ht : s0.tank.Consistent) (hmix : s0.tank.doInversionMixing = true) (hset : (s0.setpoint : WithTop ℚ) ≤ hi)
    (habs : Sim.noSetpoint < s0.setpoint) (he : ElementsOnly s0) {i : Fin k} {is : List (Fin k)}
    (hnd : (i :: is).Nodup) {minutes : ℚ} (inv : TurnInv s0 lo hi (i :: is) s minutes) {r : Sim n k × ℚ}
    (h : s.heatBody m fuel dr amb i minutes = .ok r) : TurnInv s0 lo hi is r.1 r.2 := by
  have hes : ElementsOnly s := he.of_cfg inv.step.cfg
  have hni : i ∉ is := (List.nodup_cons.mp hnd).1
  unfold Sim.heatBody at h
  obtain ⟨s1, h1, h⟩ := (bind_ok_iff _ _ _).mp h
  obtain ⟨a1, a2, a3⟩ := applyLocks_alone hes inv.alone h1
  have c1 := CtrlEq.applyLocks h1
  have st1 := inv.step.ctrl c1
  have sum1 : ∑ i, (s1.st i).runtime_min = ∑ i, (s.st i).runtime_min :=
    Finset.sum_congr rfl fun j _ => c1.runtime j
  have en1 : ∀ i w, (s0.cfg.src i).kind = .resistance w →
      (s1.st i).energyInput_kWh = w * ((s1.st i).runtime_min / 60) := fun i w hw => by
    rw [c1.input, c1.runtime]; exact inv.energy i w hw
  by_cases hon : (s1.st i).isOn = true
  · rw [if_pos hon] at h
    have hleft : ∑ i, (s1.st i).runtime_min + minutes ≤ s0.cfg.minutesPerStep := by
      rw [sum1]
      rcases inv.left with h | h
      · exact h
      · exact absurd (a2 i hon) (by rw [h i (List.mem_cons_self ..)]; simp)
    obtain ⟨p, hp, h⟩ := (bind_ok_iff _ _ _).mp h
    unfold Sim.pickSource at hp
    rw [a3 hon] at hp
    cases hp
    dsimp only at h
    unfold Sim.runSource at h
    obtain ⟨s2, h2, h⟩ := (bind_ok_iff _ _ _).mp h
    obtain ⟨st2, r0, rM⟩ := StepInv.heat hexp (hS i) hn ht hmix hset habs st1 inv.nonneg inv.le h2
    have he1 : ElementsOnly s1 := he.of_cfg st1.cfg
    obtain ⟨w, hw⟩ := he1.element i
    have h2a : s1.addHeat m fuel i amb minutes = .ok s2 := by
      unfold Sim.addHeatParent at h2
      rw [hw] at h2
      exact h2
    obtain ⟨hk, e2⟩ := addHeat_spec h2a
    unfold Sim.addHeatKind at hk
    rw [hw] at hk
    have hin := (resistanceAddHeat_input hk).1
    dsimp only at hin
    have hcfg2 : s2.cfg = s0.cfg := st2.cfg
    have hw0 : (s0.cfg.src i).kind = .resistance w := by rw [← st1.cfg]; exact hw
    have hz : (s1.st i).runtime_min = 0 := by
      rw [c1.runtime]; exact inv.fresh i (List.mem_cons_self ..)
    have hz' : (s1.st i).energyInput_kWh = 0 := by
      rw [en1 i w hw0, hz]; ring
    have hstate : s2.st = Function.update s1.st i (s2.st i) := by rw [e2]; simp
    have other : ∀ j, j ≠ i → s2.st j = s1.st j := fun j hj => by
      rw [hstate]; exact Function.update_of_ne hj _ _
    have sum2 : ∑ j, (s2.st j).runtime_min = ∑ j, (s1.st j).runtime_min + (s2.st i).runtime_min := by
      rw [hstate, sum_runtime_update, hz]
      simp
    have onOther : ∀ j, j ≠ i → (s2.st j).isOn = false := fun j hj => by
      rw [other j hj]
      by_contra hc
      exact hj (a1.alone j i (by simpa using hc) hon)
    have hfr : ∀ j ∈ is, (s2.st j).runtime_min = 0 := fun j hj => by
      have hji : j ≠ i := fun e => hni (e ▸ hj)
      rw [other j hji, c1.runtime]
      exact inv.fresh j (List.mem_cons_of_mem _ hj)
    have hen : ∀ j w, (s0.cfg.src j).kind = .resistance w →
        (s2.st j).energyInput_kWh = w * ((s2.st j).runtime_min / 60) := by
      intro j w' hj
      by_cases hji : j = i
      · subst hji
        cases hw0.symm.trans hj
        rw [hin, hz', zero_add]
      · rw [other j hji]; exact en1 j w' hj
    have heat2 : s2.isHeating = true := by
      have : s2.isHeating = s1.isHeating := by rw [e2]
      rw [this]; exact a1.known i hon
    have alone2 : OneAtMost s2 := by
      have on : ∀ j, (s2.st j).isOn = true → j = i := fun j hj => by
        by_contra hc
        rw [onOther j hc] at hj
        cases hj
      exact ⟨fun a b ha hb => (on a ha).trans (on b hb).symm, fun _ _ => heat2⟩
    by_cases hlt : (s2.st i).runtime_min < minutes
    · rw [if_pos hlt] at h
      obtain ⟨s3, h3, h⟩ := (bind_ok_iff _ _ _).mp h
      cases h
      have he2 : ElementsOnly s2 := he.of_cfg hcfg2
      -- the element is switched off and the next one may come on
      have key : OneAtMost s3 ∧ CtrlEq s2 s3 := by
        unfold Sim.afterEarly at h3
        obtain ⟨fo, hfo, h3⟩ := (bind_ok_iff _ _ _).mp h3
        obtain ⟨w2, hw2⟩ := he2.element i
        have off : ∀ j, ((s2.disengage i).st j).isOn = true → False := fun j hj => by
          obtain ⟨h1, h2⟩ := disengage_on.mp hj
          rw [onOther j h1] at h2
          cases h2
        cases fo with
        | some f =>
          dsimp only at h3
          rw [engage_alone (s := s2.disengage i) (he2.noCompanion f)] at h3
          cases h3
          refine ⟨OneAtMost.switched fun j hj => (off j hj).elim, (CtrlEq.disengage s2 i).trans ?_⟩
          exact (CtrlEq.setSt _ f true _).trans (CtrlEq.heating _ _)
        | none =>
          obtain ⟨mx, hmx, h3⟩ := (bind_ok_iff _ _ _).mp h3
          unfold SourceCfg.maxedOut at hmx
          rw [hw2] at hmx
          cases hmx
          cases h3
          exact ⟨alone2.disengage i, CtrlEq.disengage s2 i⟩
      obtain ⟨al3, c3⟩ := key
      have sum3 : ∑ j, (s3.st j).runtime_min = ∑ j, (s2.st j).runtime_min :=
        Finset.sum_congr rfl fun j _ => c3.runtime j
      refine ⟨st2.ctrl c3, al3, by linarith, by linarith [inv.le], fun j hj => by rw [c3.runtime]; exact hfr j hj,
        fun j w hw => by rw [c3.input, c3.runtime]; exact hen j w hw, ?_, .inl ?_⟩
      · rw [sum3, sum2]; linarith
      · rw [sum3, sum2]; linarith
    · rw [if_neg hlt] at h
      cases h
      refine ⟨st2, alone2, inv.nonneg, inv.le, hfr, hen, ?_, .inr fun j hj => ?_⟩
      · rw [sum2]; linarith
      · exact onOther j fun e => hni (e ▸ hj)
  · rw [if_neg hon] at h
    cases h
    refine ⟨st1, a1, inv.nonneg, inv.le, fun j hj => by rw [c1.runtime]; exact inv.fresh j (List.mem_cons_of_mem _ hj),
      en1, by rw [sum1]; exact inv.total, ?_⟩
    rcases inv.left with h | h
    · left; rw [sum1]; exact h
    · right
      intro j hj
      by_contra hc
      have := a2 j (by simpa using hc)
      rw [h j (List.mem_cons_of_mem _ hj)] at this
      cases this

theorem heatSrcLoop_alone {m : Libm} (hexp : ∀ x, 0 ≤ m.exp x) {fuel : ℕ} {dr : DR} {amb : ℚ} {s0 : Sim n k} {lo : ℚ}
    {hi : WithTop ℚ} (hS : ∀ j, (s0.cfg.src j).Sound s0.setpoint amb lo hi) (hn : n + 1 ≤ 10000)
    (ht : s0.tank.Consistent) (hmix : s0.tank.doInversionMixing = true) (hset : (s0.setpoint : WithTop ℚ) ≤ hi)
    (habs : Sim.noSetpoint < s0.setpoint) (he : ElementsOnly s0) : ∀ {is : List (Fin k)}, is.Nodup →
    ∀ {s : Sim n k} {minutes : ℚ}, TurnInv s0 lo hi is s minutes → ∀ {s' : Sim n k},
      s.heatSrcLoop m fuel dr amb is minutes = .ok s' → ∃ x, TurnInv s0 lo hi [] s' x
  | [], _, s, minutes, inv, s', h => by cases h; exact ⟨_, inv⟩
  | i :: is, hnd, s, minutes, inv, s', h => by
    rw [Sim.heatSrcLoop] at h
    obtain ⟨r, h1, h⟩ := (bind_ok_iff _ _ _).mp h
    exact heatSrcLoop_alone hexp hS hn ht hmix hset habs he (List.nodup_cons.mp hnd).2
      (heatBody_alone hexp hS hn ht hmix hset habs he hnd inv h1) h

/-! ## Steps and runs -/

theorem control_alone {m : Libm} (hexp : ∀ x, 0 ≤ m.exp x) {fuel : ℕ} {dr : DR} {amb : ℚ} {s0 s' : Sim n k} {lo : ℚ}
    {hi : WithTop ℚ} (hS : ∀ j, (s0.cfg.src j).Sound s0.setpoint amb lo hi) (hn : n + 1 ≤ 10000)
    (ht : s0.tank.Consistent) (hmix : s0.tank.doInversionMixing = true) (hset : (s0.setpoint : WithTop ℚ) ≤ hi)
    (habs : Sim.noSetpoint < s0.setpoint) (he : ElementsOnly s0) (ha : OneAtMost s0) (htop : dr.too = false ∧ dr.tot = false)
    (hi0 : StepInv s0 s0 lo hi) (hM : 0 ≤ s0.cfg.minutesPerStep)
    (hclear : ∀ i, (s0.st i).runtime_min = 0 ∧ (s0.st i).energyInput_kWh = 0)
    (h : s0.control m fuel dr amb = .ok s') : ∃ x, TurnInv s0 lo hi [] s' x := by
  unfold Sim.control at h
  obtain ⟨s1, h1, h⟩ := (bind_ok_iff _ _ _).mp h
  have start : ∀ (is : List (Fin k)) (s : Sim n k), CtrlEq s0 s → OneAtMost s →
      TurnInv s0 lo hi is s s0.cfg.minutesPerStep := by
    intro is s c a
    have hz : ∑ i, (s.st i).runtime_min = 0 := Finset.sum_eq_zero fun j _ => by rw [c.runtime]; exact (hclear j).1
    refine ⟨hi0.ctrl c, a, hM, le_rfl, fun j _ => by rw [c.runtime]; exact (hclear j).1, fun j w _ => ?_,
      by rw [hz]; exact hM, .inl (by rw [hz]; linarith)⟩
    rw [c.input, c.runtime, (hclear j).1, (hclear j).2]
    ring
  have key : ∃ x, TurnInv s0 lo hi [] s1 x := by
    unfold Sim.normalControl at h1
    by_cases hoff : (dr.loc && dr.lor) = true
    · rw [if_pos hoff] at h1
      cases h1
      exact ⟨_, start [] _ (CtrlEq.turnAllOff s0) ⟨fun a b ha => (by cases ha), fun a ha => (by cases ha)⟩⟩
    · rw [if_neg hoff] at h1
      obtain ⟨a, h2, h1⟩ := (bind_ok_iff _ _ _).mp h1
      unfold Sim.topOff at h2
      rw [htop.1, htop.2] at h2
      cases h2
      obtain ⟨b, h2, h1⟩ := (bind_ok_iff _ _ _).mp h1
      exact heatSrcLoop_alone hexp hS hn ht hmix hset habs he (List.nodup_finRange k)
        (start _ b (CtrlEq.chooseLoop h2) (chooseLoop_alone _ _ _ he ha h2)) h1
  obtain ⟨x, hx⟩ := key
  refine ⟨x, ?_⟩
  cases h
  split_ifs with hall
  · have c := CtrlEq.heating s1 false
    have off : ∀ i, (s1.st i).isOn = false := by simpa [Sim.allOff] using hall
    exact ⟨hx.step.ctrl c, ⟨hx.alone.alone, fun i hi => by
      have := off i
      change (s1.st i).isOn = true at hi
      rw [this] at hi; cases hi⟩, hx.nonneg, hx.le, hx.fresh, hx.energy, hx.total, hx.left⟩
  · exact hx

/-- **C82.** Resistance elements take turns: if at most one is on before a step without a top-off signal, then at most
one is on after it. The elements together run no longer than the step, and use together no more than the
most powerful of them does in that time. -/
theorem C82_step (m : Libm) (hexp : ∀ x, 0 ≤ m.exp x) (fuel : ℕ) (s s' : Sim n k) (u : Sim.StepInput) (lo : ℚ)
    (hi : WithTop ℚ) (ha : s.Accountable u lo hi) (he : ElementsOnly s) (h1 : OneAtMost s)
    (htop : u.dr.too = false ∧ u.dr.tot = false) (h : Sim.runOneStep m fuel s u = .ok s') :
    OneAtMost s' ∧ ElementsOnly s' ∧ ∑ i, (s'.st i).runtime_min ≤ s.cfg.minutesPerStep ∧
    ∀ P, (∀ i w, (s.cfg.src i).kind = .resistance w → w ≤ P) → 0 ≤ P →
      ∑ i, (s'.st i).energyInput_kWh ≤ P * (s.cfg.minutesPerStep / 60) := by
  obtain ⟨-, s0, s1, s2, hs, hctl, h2, rfl⟩ := runOneStep_ok h
  have hw := ha.wellFormed
  have hdrawn := hs.drawn
  unfold Sim.DrawnTank at hdrawn
  have hw0 : Tank.WellFormed { s.tank with outletT := 0, standbyLosses_kJ := 0 } := hw.of_cfg rfl
  obtain ⟨f1, f2⟩ := updateNodes_facts _ _ hw0 _ _ _ _ _ _ _ ha.draw hdrawn
  have hcfg0 : s0.tank.toTankCfg = s.tank.toTankCfg := f1
  have hws : s0.tank.WellFormed := hw.of_cfg hcfg0
  have hr := ha.range _ hs.drawn
  have hstep : 0 ≤ s0.cfg.minutesPerStep := by rw [hs.cfg]; exact ha.step
  have he0 : ElementsOnly s0 := he.of_cfg hs.cfg
  have h10 : OneAtMost s0 := ⟨fun i j hi hj => h1.alone i j (by rw [hs.st] at hi; exact hi) (by rw [hs.st] at hj; exact hj),
    fun i hi => by rw [hs.isHeating]; exact h1.known i (by rw [hs.st] at hi; exact hi)⟩
  obtain ⟨x, inv⟩ := control_alone hexp (fun j => by rw [hs.cfg, hs.setpoint]; exact ha.sound j) ha.nodes
    hws.toConsistent (by rw [hcfg0]; exact ha.mixing) (by rw [hs.setpoint]; exact ha.setpoint)
    (by rw [hs.setpoint]; exact ha.absolute) he0 h10 htop
    (StepInv.init s0 lo hi (f2 ha.mixing) (fun j => (hr j).1)
      (fun j => (hr j).2) (fun i => by rw [hs.st]; rfl) hstep) hstep
    (fun i => by rw [hs.st]; exact ⟨rfl, rfl⟩) hctl
  obtain ⟨x1, x2, -, -, -, x6, -⟩ := extraStep_frame h2
  obtain ⟨-, g2, g3, -, -, g6, g7, -⟩ := finish_facts s2 u.tankAmbient u.dr
  have hk : ∀ i, ∃ w, (s2.cfg.src i).kind = .resistance w := fun i => by
    rw [x1, inv.step.cfg]; exact he0.element i
  refine ⟨⟨fun i j hi hj => ?_, fun i hi => ?_⟩, ?_, ?_, fun P hP hP0 => ?_⟩
  · rw [(g6 i).2.2.1, x2] at hi
    rw [(g6 j).2.2.1, x2] at hj
    exact inv.alone.alone i j hi hj
  · rw [(g6 i).2.2.1, x2] at hi
    rw [g3, x6]
    exact inv.alone.known i hi
  · exact he.of_cfg (by rw [g2, x1, inv.step.cfg, hs.cfg])
  · have : ∑ i, (s1.st i).runtime_min ≤ s.cfg.minutesPerStep := by rw [← hs.cfg]; exact inv.total
    refine le_trans (le_of_eq (Finset.sum_congr rfl fun i _ => ?_)) this
    rw [(g6 i).1, x2]
  · have tot : ∑ i, (s1.st i).runtime_min ≤ s.cfg.minutesPerStep := by rw [← hs.cfg]; exact inv.total
    have each : ∀ i, ((((s2.trackLocation u.tankAmbient).settleOutputs).updateTimer u.dr).st i).energyInput_kWh ≤
        P / 60 * (s1.st i).runtime_min := by
      intro i
      obtain ⟨w, hw⟩ := hk i
      have hw0 : (s0.cfg.src i).kind = .resistance w := by rw [← inv.step.cfg, ← x1]; exact hw
      rw [g7 i, hw, x2, add_zero, inv.energy i w hw0]
      have := mul_le_mul_of_nonneg_right (hP i w (by rw [← hs.cfg]; exact hw0)) (inv.step.run_nonneg i)
      linarith
    calc _ ≤ ∑ i, P / 60 * (s1.st i).runtime_min := Finset.sum_le_sum fun i _ => each i
      _ = P / 60 * ∑ i, (s1.st i).runtime_min := by rw [Finset.mul_sum]
      _ ≤ P / 60 * s.cfg.minutesPerStep := mul_le_mul_of_nonneg_left tot (by positivity)
      _ = _ := by ring

/-- **C82.** Over a run of any number of steps without top-off signals, never more than one element is on after a step,
and all together use no more than the most powerful one would if it were always on. -/
theorem C82_run (m : Libm) (hexp : ∀ x, 0 ≤ m.exp x) (fuel : ℕ) (s0 s' : Sim n k) (us : List Sim.RunInput)
    (ha : s0.AlwaysAccountable) (he : ElementsOnly s0) (h1 : OneAtMost s0) (hd : ∀ u ∈ us, 0 ≤ u.draw_L)
    (htop : ∀ u ∈ us, u.dr.too = false ∧ u.dr.tot = false) (h : Sim.runNSteps m fuel s0 us = .ok s') :
    OneAtMost s' ∧ ∑ i, (s'.st i).runtime_min ≤ us.length * s0.cfg.minutesPerStep ∧
    ∀ P, (∀ i w, (s0.cfg.src i).kind = .resistance w → w ≤ P) → 0 ≤ P →
      ∑ i, (s'.st i).energyInput_kWh ≤ P * (us.length * s0.cfg.minutesPerStep / 60) := by
  obtain ⟨s, e0, hst, -, hg⟩ := (C34_run_aggregates_steps m fuel s0 s' us).mp h
  have key : ∀ N (hN : N ≤ us.length), (s N).AlwaysAccountable ∧ ElementsOnly (s N) ∧ OneAtMost (s N) ∧
      (s N).cfg = s0.cfg := by
    intro N
    induction N with
    | zero => intro _; rw [e0]; exact ⟨ha, he, h1, rfl⟩
    | succ N ih =>
      intro hN
      obtain ⟨i1, i2, i3, i4⟩ := ih (by omega)
      have hstep := hst ⟨N, by omega⟩
      obtain ⟨j1, -⟩ := i1.afterStep hexp us[N] (hd _ (List.getElem_mem _)) hstep
      have i1' : ((s N).setInletT us[N].inletT).AlwaysAccountable := ⟨i1.nodes, i1.volume, i1.nodeVolume, i1.nodeCp,
        i1.inlet, i1.inlet2, i1.mixBelow, i1.mixing, i1.effectiveness, i1.step, i1.absolute, i1.sound⟩
      obtain ⟨lo, hac⟩ := i1'.accountable us[N].step (hd _ (List.getElem_mem _)) (by simp [Sim.RunInput.step])
      obtain ⟨k1, k2, -⟩ := C82_step m hexp fuel _ _ us[N].step lo ⊤ hac (i2.of_cfg rfl) ⟨i3.alone, i3.known⟩
        (htop _ (List.getElem_mem _)) hstep
      obtain ⟨-, -, -, -, -, hcfg, -⟩ := step_facts m hexp fuel _ _ us[N].step lo ⊤ hac hstep
      exact ⟨j1, k2, k1, hcfg.trans i4⟩
  have each : ∀ t : Fin us.length, ∑ i, ((s (t + 1)).st i).runtime_min ≤ s0.cfg.minutesPerStep ∧
      ∀ P, (∀ i w, (s0.cfg.src i).kind = .resistance w → w ≤ P) → 0 ≤ P →
        ∑ i, ((s (t + 1)).st i).energyInput_kWh ≤ P * (s0.cfg.minutesPerStep / 60) := by
    intro t
    obtain ⟨i1, i2, i3, i4⟩ := key t t.2.le
    have i1' : ((s t).setInletT us[t].inletT).AlwaysAccountable := ⟨i1.nodes, i1.volume, i1.nodeVolume, i1.nodeCp,
      i1.inlet, i1.inlet2, i1.mixBelow, i1.mixing, i1.effectiveness, i1.step, i1.absolute, i1.sound⟩
    obtain ⟨lo, hac⟩ := i1'.accountable us[t].step (hd _ (List.getElem_mem _)) (by simp [Sim.RunInput.step])
    obtain ⟨-, -, k3, k4⟩ := C82_step m hexp fuel _ _ us[t].step lo ⊤ hac (i2.of_cfg rfl) ⟨i3.alone, i3.known⟩
      (htop _ (List.getElem_mem _)) (hst t)
    change _ ≤ (s t).cfg.minutesPerStep at k3
    rw [i4] at k3
    refine ⟨k3, fun P hP h0 => ?_⟩
    have := k4 P (by show ∀ i w, ((s t).cfg.src i).kind = _ → _; rw [i4]; exact hP) h0
    change _ ≤ P * ((s t).cfg.minutesPerStep / 60) at this
    rw [i4] at this
    exact this
  have last := (key us.length le_rfl).2.2.1
  refine ⟨⟨fun i j hi hj => last.alone i j ?_ ?_, fun i hi => ?_⟩, ?_, fun P hP h0 => ?_⟩
  · rw [← (hg.switches i).1]; exact hi
  · rw [← (hg.switches j).1]; exact hj
  · rw [hg.last]
    exact last.known i (by rw [← (hg.switches i).1]; exact hi)
  · simp only [hg.runtime]
    rw [Finset.sum_comm]
    refine (Finset.sum_le_sum fun t _ => (each t).1).trans ?_
    simp
  · simp only [hg.input]
    rw [Finset.sum_comm]
    refine (Finset.sum_le_sum fun t _ => (each t).2 P hP h0).trans ?_
    simp only [Finset.sum_const, Finset.card_univ, Fintype.card_fin, nsmul_eq_mul]
    apply le_of_eq
    ring

/-! ## Resistance tanks, and a case with both elements on -/

/-- **C82.** In a resistance tank from `initResistanceTank` the elements take turns from the first step on. -/
theorem C82_resistance_tank (m : Libm) (hexp : ∀ x, 0 ≤ m.exp x) (hl : LogLike m.log) (pow : ℚ → ℚ → ℚ)
    (hp : PowPos pow) (hp1 : ∀ x y, 0 ≤ x → x ≤ 1 → 0 ≤ pow x y ∧ pow x y ≤ 1) {n₀ k₀ : ℕ} (base : Sim n₀ k₀)
    (vol EF up low : ℚ) (hu : 0 < up) {k : ℕ} (s s' : Sim 11 k)
    (h : initResistanceTank m pow base vol EF up low = .ok ⟨k, s⟩) (fuel : ℕ) (us : List Sim.RunInput)
    (hd : ∀ u ∈ us, 0 ≤ u.draw_L) (htop : ∀ u ∈ us, u.dr.too = false ∧ u.dr.tot = false)
    (hr : Sim.runNSteps m fuel s us = .ok s') :
    OneAtMost s' ∧ ∑ i, (s'.st i).runtime_min ≤ us.length ∧
      ∑ i, (s'.st i).energyInput_kWh ≤ max up low / 1000 * (us.length / 60) := by
  have hlow : 550 ≤ low := ((C81_accepted_iff m pow hp base vol EF up low).mp ⟨_, h⟩).2.2.2
  obtain ⟨⟨UA, hD, -⟩, hA, hk, top, bottom, hlt, et, eb, -, -, -, -, hnone⟩ :=
    C81_two_elements m hl pow hp hp1 base vol EF up low hu s h
  subst hk
  have both : ∀ i : Fin 2, i = top ∨ i = bottom := by omega
  have hcomp : s.cfg.compressorIndex = none := by
    have hE : 0 < EF := ((C81_accepted_iff m pow hp base vol EF up low).mp ⟨_, h⟩).2.1
    unfold initResistanceTank at h
    rw [if_neg (not_lt.mpr hlow), if_neg (not_lt.mpr hu.le), if_neg (not_le.mpr hE), if_pos hu] at h
    obtain ⟨h0, h⟩ := packed_ok h
    cases h0
    obtain ⟨-, -, -, -, h4⟩ := elementTank_delivered m hl pow hp hp1 base
      (bothElements_good hu (by linarith : 0 < low)) false vol _ s h
    cases hc : s.cfg.compressorIndex with
    | none => rfl
    | some i =>
      obtain ⟨c, hi, -⟩ := (h4.heatPump i).mp hc
      change (s.cfg.src i).kind = _ at hi
      rcases both i with rfl | rfl
      · rw [et.power] at hi; cases hi
      · rw [eb.power] at hi; cases hi
  have he : ElementsOnly s := ⟨fun i => by
    rcases both i with rfl | rfl
    · exact ⟨_, et.power⟩
    · exact ⟨_, eb.power⟩, fun i => (hnone i).1, fun i => (hnone i).2, hcomp⟩
  have h1 : OneAtMost s := ⟨fun i _ hi => absurd hi (by rw [hD.off]; decide),
    fun i hi => absurd hi (by rw [hD.off]; decide)⟩
  obtain ⟨r1, r2, r3⟩ := C82_run m hexp fuel s s' us hA he h1 hd htop hr
  rw [hD.step, mul_one] at r2
  refine ⟨r1, r2, ?_⟩
  have := r3 (max up low / 1000) (fun i w hw => ?_) (by positivity)
  · rw [hD.step, mul_one] at this
    exact this
  · rcases both i with rfl | rfl
    · rw [et.power] at hw
      cases hw
      exact div_le_div_of_nonneg_right (le_max_left ..) (by norm_num)
    · rw [eb.power] at hw
      cases hw
      exact div_le_div_of_nonneg_right (le_max_right ..) (by norm_num)

/-- A tank of two nodes with an upper element of 5 kW, which has priority, and a lower one of 4 kW which follows it.
Its setpoint is 50 °C; both elements start when the water at the top is below 25 °C. -/
def turnSim : Sim 1 2 where
  tank := { daySim.tank with nodeTs := ![10, 24] }
  setpoint := 50
  inletT := 10
  haveInletT := true
  socControl := none
  soc := 0
  condenserInlet := 0
  condenserOutlet := 0
  externalVolumeHeated := 0
  cfg :=
    { src := ![
        { kind := .resistance 5, isVIP := true, backup := none, companion := none, followedBy := some 1
          heatDist := [⟨1 / 2, 0⟩, ⟨1, 1⟩], shrinkageT := 1, lowestNode := 1
          turnOn := [⟨.temp false .top, 25, .less, false, false, ""⟩]
          shutOff := [], standby := none, minT := -100, maxT := 100, depressesTemperature := false
          airflowFreedom := 1, externalInlet := 1, externalOutlet := 0 },
        { kind := .resistance 4, isVIP := false, backup := none, companion := none, followedBy := none
          heatDist := [⟨1 / 2, 1⟩, ⟨1, 0⟩], shrinkageT := 1, lowestNode := 0
          turnOn := [⟨.temp false .top, 25, .less, false, false, ""⟩]
          shutOff := [], standby := none, minT := -100, maxT := 100, depressesTemperature := false
          airflowFreedom := 1, externalInlet := 1, externalOutlet := 0 }]
      minutesPerStep := 1, doTempDepression := false, maxDepression := 3, timerLimitTOT := 60
      compressorIndex := none, lowestElementIndex := some 1, vipIndex := some 0
      setpointFixed := false, isStorageTank := false, canScale := false, heightMap := [] }
  st := fun _ => ⟨false, false, 0, 0, 0⟩
  isHeating := false
  locationT := -500
  timerTOT := 0
  energyRemoved_kWh := 0
  standbyLosses_kWh := 0
  extraEnergyInput_kWh := 0

/-- A minute with a small draw. -/
def turnInput (topOff : Bool) : Sim.RunInput := ⟨10, 1 / 10, 20, 20, ⟨false, false, topOff, false⟩⟩

theorem turnSim_accountable : turnSim.AlwaysAccountable where
  nodes := by norm_num
  volume := by decide +kernel
  nodeVolume := by decide +kernel
  nodeCp := by decide +kernel
  inlet := by decide +kernel
  inlet2 := by decide +kernel
  mixBelow := by decide +kernel
  mixing := rfl
  effectiveness h := by cases h
  step := by decide +kernel
  absolute := by decide +kernel
  sound := by
    intro i air lo
    fin_cases i
    all_goals
      refine ⟨fun p hp => ?_, fun c hc => ?_, fun c hc => ?_, fun c hc => ?_⟩
      · injection hp with hp
        rw [← hp]
        exact ⟨by norm_num, by decide +kernel, by decide +kernel⟩
      all_goals cases hc

theorem turnSim_elements : ElementsOnly turnSim ∧ OneAtMost turnSim := by
  refine ⟨⟨fun i => ?_, fun i => ?_, fun i => ?_, rfl⟩, ⟨fun i _ hi => (by cases hi), fun i hi => (by cases hi)⟩⟩
  all_goals fin_cases i
  exacts [⟨5, rfl⟩, ⟨4, rfl⟩, rfl, rfl, rfl, rfl]

/-- The hypotheses are met, and the upper element runs. -/
example : turnSim.AlwaysAccountable ∧ ElementsOnly turnSim ∧ OneAtMost turnSim ∧
    (∀ u ∈ [turnInput false, turnInput false], 0 ≤ u.draw_L ∧ u.dr.too = false ∧ u.dr.tot = false) ∧
    ∃ s', Sim.runNSteps sampleLibm 5 turnSim [turnInput false, turnInput false] = .ok s' ∧
      (s'.st 0).isOn = true ∧ (s'.st 0).runtime_min = 2 ∧ (s'.st 1).isOn = false :=
  ⟨turnSim_accountable, turnSim_elements.1, turnSim_elements.2, by simp [turnInput], by decide +kernel⟩

/-- **C82.** The restriction to steps without a top-off signal is needed: one such signal while the upper element is
running also starts the lower one. Both go on running after the signal has ended, and together draw the sum of their
powers. -/
theorem C82_topOff_runs_both :
    ∃ s', Sim.runNSteps sampleLibm 5 turnSim [turnInput false, turnInput true, turnInput false] = .ok s' ∧
      (s'.st 0).isOn = true ∧ (s'.st 1).isOn = true ∧
      (s'.st 0).runtime_min = 3 ∧ (s'.st 1).runtime_min = 2 ∧
      (s'.st 0).energyInput_kWh + (s'.st 1).energyInput_kWh = 5 * (3 / 60) + 4 * (2 / 60) := by
  decide +kernel

end HPWH
