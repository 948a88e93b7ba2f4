import Verif.Spec.Recovery
import Verif.Props.Alone
import Verif.Props.Between

/-! # C92: resistance heaters heat without pause and recover -/

namespace HPWH

open Spec
open _root_.HPWH.Units

variable {n k : ℕ}

/-! ## Without pause -/

/-- During the heating of a step: everything is off; or the elements have run for the whole step; or they have run up to
now, and the one that is on is still to be visited. -/
def Busy (s0 : Sim n k) (is : List (Fin k)) (s : Sim n k) (minutes : ℚ) : Prop :=
  (∀ i, (s.st i).isOn = false) ∨
  (∑ i, (s.st i).runtime_min = s0.cfg.minutesPerStep ∧ ∀ i ∈ is, (s.st i).isOn = false) ∨
  (∑ i, (s.st i).runtime_min + minutes = s0.cfg.minutesPerStep ∧ ∃ i ∈ is, (s.st i).isOn = true)

theorem heatBody_busy {m : Libm} (hexp : ∀ x, 0 ≤ m.exp x) {fuel : ℕ} {dr : DR} {amb : ℚ} {s0 s : Sim n k} {lo : ℚ}
    {hi : WithTop ℚ} (hS : ∀ j, (s0.cfg.src j).Sound s0.setpoint amb lo hi) (hn : n + 1 ≤ 10000)
    (ht : s0.tank.Consistent) (hmix : s0.tank.doInversionMixing = true) (hset : (s0.setpoint : WithTop ℚ) ≤ hi)
    (habs : Sim.noSetpoint < s0.setpoint) (he : ElementsOnly s0) (hord : FollowersInOrder s0) {i : Fin k}
    {is : List (Fin k)} (hsuf : ∀ f, i < f → f ∈ is) (hnd : (i :: is).Nodup) {minutes : ℚ}
    (inv : TurnInv s0 lo hi (i :: is) s minutes) (hb : Busy s0 (i :: is) s minutes) {r : Sim n k × ℚ}
    (h : s.heatBody m fuel dr amb i minutes = .ok r) : Busy s0 is r.1 r.2 := by
  have hes : ElementsOnly s := he.of_cfg inv.step.cfg
  have hni : i ∉ is := (List.nodup_cons.mp hnd).1
  unfold Sim.heatBody at h
  obtain ⟨s1, h1, h⟩ := (bind_ok_iff _ _ _).mp h
  obtain ⟨a1, a2, a3⟩ := applyLocks_alone hes inv.alone h1
  have c1 := CtrlEq.applyLocks h1
  have st1 := inv.step.ctrl c1
  have sum1 : ∑ i, (s1.st i).runtime_min = ∑ i, (s.st i).runtime_min :=
    Finset.sum_congr rfl fun j _ => c1.runtime j
  have off1 : ∀ j, (s.st j).isOn = false → (s1.st j).isOn = false := fun j hj => by
    by_contra hc
    have := a2 j (by simpa using hc)
    rw [hj] at this
    cases this
  by_cases hon : (s1.st i).isOn = true
  · rw [if_pos hon] at h
    have hon0 := a2 i hon
    have hsum : ∑ i, (s.st i).runtime_min + minutes = s0.cfg.minutesPerStep := by
      rcases hb with hb | ⟨-, hb⟩ | ⟨hb, -⟩
      · rw [hb i] at hon0; cases hon0
      · rw [hb i (List.mem_cons_self ..)] at hon0; cases hon0
      · exact hb
    obtain ⟨p, hp, h⟩ := (bind_ok_iff _ _ _).mp h
    unfold Sim.pickSource at hp
    rw [a3 hon] at hp
    cases hp
    dsimp only at h
    unfold Sim.runSource at h
    obtain ⟨s2, h2, h⟩ := (bind_ok_iff _ _ _).mp h
    obtain ⟨st2, r0, rM⟩ := StepInv.heat hexp (hS i) hn ht hmix hset habs st1 inv.nonneg inv.le h2
    have he1 : ElementsOnly s1 := he.of_cfg st1.cfg
    obtain ⟨w, hw⟩ := he1.element i
    have h2a : s1.addHeat m fuel i amb minutes = .ok s2 := by
      unfold Sim.addHeatParent at h2
      rw [hw] at h2
      exact h2
    obtain ⟨-, e2⟩ := addHeat_spec h2a
    have hz : (s1.st i).runtime_min = 0 := by
      rw [c1.runtime]; exact inv.fresh i (List.mem_cons_self ..)
    have hstate : s2.st = Function.update s1.st i (s2.st i) := by rw [e2]; simp
    have sum2 : ∑ j, (s2.st j).runtime_min = ∑ j, (s1.st j).runtime_min + (s2.st i).runtime_min := by
      rw [hstate, sum_runtime_update, hz]
      simp
    have onOther : ∀ j, j ≠ i → (s2.st j).isOn = false := fun j hj => by
      rw [hstate, Function.update_of_ne hj]
      by_contra hc
      exact hj (a1.alone j i (by simpa using hc) hon)
    have he2 : ElementsOnly s2 := he.of_cfg st2.cfg
    by_cases hlt : (s2.st i).runtime_min < minutes
    · rw [if_pos hlt] at h
      obtain ⟨s3, h3, h⟩ := (bind_ok_iff _ _ _).mp h
      cases h
      unfold Sim.afterEarly at h3
      obtain ⟨fo, hfo, h3⟩ := (bind_ok_iff _ _ _).mp h3
      obtain ⟨w2, hw2⟩ := he2.element i
      have off : ∀ j, ((s2.disengage i).st j).isOn = false := fun j => by
        by_contra hc
        obtain ⟨h1, h2⟩ := disengage_on.mp (by simpa using hc)
        rw [onOther j h1] at h2
        cases h2
      cases fo with
      | some f =>
        have hif : i < f := by
          unfold Sim.follower at hfo
          cases hfb : ((s2.disengage i).cfg.src i).followedBy with
          | none => rw [hfb] at hfo; cases hfo
          | some g =>
            rw [hfb] at hfo
            obtain ⟨off, -, hfo⟩ := (bind_ok_iff _ _ _).mp hfo
            have hfo := Except.ok.inj hfo
            split_ifs at hfo
            rw [← Option.some.inj hfo]
            exact hord i g (by rw [← st2.cfg]; exact hfb)
        dsimp only at h3
        rw [engage_alone (s := s2.disengage i) (he2.noCompanion f)] at h3
        cases h3
        have c3 : CtrlEq s2 ((s2.disengage i).switched f) :=
          (CtrlEq.disengage s2 i).trans ((CtrlEq.setSt _ f true _).trans (CtrlEq.heating _ _))
        have sum3 : ∑ j, (((s2.disengage i).switched f).st j).runtime_min = ∑ j, (s2.st j).runtime_min :=
          Finset.sum_congr rfl fun j _ => c3.runtime j
        refine .inr (.inr ⟨?_, f, hsuf f hif, switched_on.mpr (.inl rfl)⟩)
        dsimp only
        rw [sum3, sum2, sum1]
        linarith
      | none =>
        obtain ⟨mx, hmx, h3⟩ := (bind_ok_iff _ _ _).mp h3
        unfold SourceCfg.maxedOut at hmx
        rw [hw2] at hmx
        cases hmx
        cases h3
        exact .inl off
    · rw [if_neg hlt] at h
      cases h
      refine .inr (.inl ⟨?_, fun j hj => onOther j fun e => hni (e ▸ hj)⟩)
      dsimp only
      rw [sum2, sum1]
      linarith
  · rw [if_neg hon] at h
    cases h
    rcases hb with hb | ⟨hb1, hb2⟩ | ⟨hb1, j, hj, hjon⟩
    · exact .inl fun j => off1 j (hb j)
    · exact .inr (.inl ⟨sum1.trans hb1, fun j hj => off1 j (hb2 j (List.mem_cons_of_mem _ hj))⟩)
    · by_cases hj1 : (s1.st j).isOn = true
      · have hji : j ≠ i := fun e => hon (e ▸ hj1)
        refine .inr (.inr ⟨?_, j, (List.mem_cons.mp hj).resolve_left hji, hj1⟩)
        dsimp only
        rw [sum1]
        exact hb1
      · refine .inl fun l => ?_
        by_contra hc
        have hl : (s1.st l).isOn = true := by simpa using hc
        exact hj1 (inv.alone.alone l j (a2 l hl) hjon ▸ hl)

theorem heatSrcLoop_busy {m : Libm} (hexp : ∀ x, 0 ≤ m.exp x) {fuel : ℕ} {dr : DR} {amb : ℚ} {s0 : Sim n k} {lo : ℚ}
    {hi : WithTop ℚ} (hS : ∀ j, (s0.cfg.src j).Sound s0.setpoint amb lo hi) (hn : n + 1 ≤ 10000)
    (ht : s0.tank.Consistent) (hmix : s0.tank.doInversionMixing = true) (hset : (s0.setpoint : WithTop ℚ) ≤ hi)
    (habs : Sim.noSetpoint < s0.setpoint) (he : ElementsOnly s0) (hord : FollowersInOrder s0) :
    ∀ (is pre : List (Fin k)), pre ++ is = List.finRange k →
    ∀ {s : Sim n k} {minutes : ℚ}, TurnInv s0 lo hi is s minutes → Busy s0 is s minutes → ∀ {s' : Sim n k},
      s.heatSrcLoop m fuel dr amb is minutes = .ok s' →
      (∀ i, (s'.st i).isOn = false) ∨ ∑ i, (s'.st i).runtime_min = s0.cfg.minutesPerStep
  | [], _, _, s, minutes, _, hb, s', h => by
    cases h
    rcases hb with hb | ⟨hb, -⟩ | ⟨-, j, hj, -⟩
    · exact .inl hb
    · exact .inr hb
    · cases hj
  | i :: is, pre, e, s, minutes, inv, hb, s', h => by
    rw [Sim.heatSrcLoop] at h
    obtain ⟨r, h1, h⟩ := (bind_ok_iff _ _ _).mp h
    have hnd : (pre ++ i :: is).Nodup := by rw [e]; exact List.nodup_finRange k
    have hnd' := (List.nodup_append.mp hnd).2.1
    have hsuf : ∀ f, i < f → f ∈ is := by
      intro f hf
      have hm : f ∈ pre ++ i :: is := by rw [e]; exact List.mem_finRange f
      have hs : (pre ++ i :: is).Pairwise (· < ·) := by rw [e]; exact List.pairwise_lt_finRange k
      rcases List.mem_append.mp hm with hm | hm
      · exact absurd ((List.pairwise_append.mp hs).2.2 f hm i (List.mem_cons_self ..)) (not_lt.mpr hf.le)
      · rcases List.mem_cons.mp hm with rfl | hm
        · exact absurd hf (lt_irrefl _)
        · exact hm
    exact heatSrcLoop_busy hexp hS hn ht hmix hset habs he hord is (pre ++ [i]) (by simp [e])
      (heatBody_alone hexp hS hn ht hmix hset habs he hnd' inv h1)
      (heatBody_busy hexp hS hn ht hmix hset habs he hord hsuf hnd' inv hb h1) h

theorem control_busy {m : Libm} (hexp : ∀ x, 0 ≤ m.exp x) {fuel : ℕ} {dr : DR} {amb : ℚ} {s0 s' : Sim n k} {lo : ℚ}
    {hi : WithTop ℚ} (hS : ∀ j, (s0.cfg.src j).Sound s0.setpoint amb lo hi) (hn : n + 1 ≤ 10000)
    (ht : s0.tank.Consistent) (hmix : s0.tank.doInversionMixing = true) (hset : (s0.setpoint : WithTop ℚ) ≤ hi)
    (habs : Sim.noSetpoint < s0.setpoint) (he : ElementsOnly s0) (hord : FollowersInOrder s0) (ha : OneAtMost s0)
    (htop : dr.too = false ∧ dr.tot = false) (hi0 : StepInv s0 s0 lo hi) (hM : 0 ≤ s0.cfg.minutesPerStep)
    (hclear : ∀ i, (s0.st i).runtime_min = 0 ∧ (s0.st i).energyInput_kWh = 0)
    (h : s0.control m fuel dr amb = .ok s') :
    (∀ i, (s'.st i).isOn = false) ∨ ∑ i, (s'.st i).runtime_min = s0.cfg.minutesPerStep := by
  unfold Sim.control at h
  obtain ⟨s1, h1, h⟩ := (bind_ok_iff _ _ _).mp h
  have key : (∀ i, (s1.st i).isOn = false) ∨ ∑ i, (s1.st i).runtime_min = s0.cfg.minutesPerStep := by
    unfold Sim.normalControl at h1
    by_cases hoff : (dr.loc && dr.lor) = true
    · rw [if_pos hoff] at h1
      cases h1
      exact .inl fun _ => rfl
    · rw [if_neg hoff] at h1
      obtain ⟨a, h2, h1⟩ := (bind_ok_iff _ _ _).mp h1
      unfold Sim.topOff at h2
      rw [htop.1, htop.2] at h2
      cases h2
      obtain ⟨b, h2, h1⟩ := (bind_ok_iff _ _ _).mp h1
      have c := CtrlEq.chooseLoop h2
      have al := chooseLoop_alone _ _ _ he ha h2
      have hz : ∑ i, (b.st i).runtime_min = 0 := Finset.sum_eq_zero fun j _ => by rw [c.runtime]; exact (hclear j).1
      have start : TurnInv s0 lo hi (List.finRange k) b s0.cfg.minutesPerStep := by
        refine ⟨hi0.ctrl c, al, hM, le_rfl, fun j _ => by rw [c.runtime]; exact (hclear j).1, fun j w _ => ?_,
          by rw [hz]; exact hM, .inl (by rw [hz]; linarith)⟩
        rw [c.input, c.runtime, (hclear j).1, (hclear j).2]
        ring
      refine heatSrcLoop_busy hexp hS hn ht hmix hset habs he hord (List.finRange k) [] rfl start ?_ h1
      by_cases hany : ∃ i, (b.st i).isOn = true
      · obtain ⟨i, hi⟩ := hany
        exact .inr (.inr ⟨by rw [hz]; ring, i, List.mem_finRange i, hi⟩)
      · exact .inl fun i => by
          by_contra hc
          exact hany ⟨i, by simpa using hc⟩
  cases h
  split_ifs
  · exact key
  · exact key

/-- **C92.** A resistance heater heats without pause: if an element is on after a step without a top-off signal, then the
elements together have run for the whole step. So in each step they run throughout, or at its end all are off. -/
theorem C92_no_pause (m : Libm) (hexp : ∀ x, 0 ≤ m.exp x) (fuel : ℕ) (s s' : Sim n k) (u : Sim.StepInput) (lo : ℚ)
    (hi : WithTop ℚ) (ha : s.Accountable u lo hi) (he : ElementsOnly s) (hord : FollowersInOrder s) (h1 : OneAtMost s)
    (htop : u.dr.too = false ∧ u.dr.tot = false) (h : Sim.runOneStep m fuel s u = .ok s')
    (hon : ∃ i, (s'.st i).isOn = true) : ∑ i, (s'.st i).runtime_min = s.cfg.minutesPerStep := by
  obtain ⟨-, s0, s1, s2, hs, hctl, h2, rfl⟩ := runOneStep_ok h
  have hw := ha.wellFormed
  have hdrawn := hs.drawn
  unfold Sim.DrawnTank at hdrawn
  have hw0 : Tank.WellFormed { s.tank with outletT := 0, standbyLosses_kJ := 0 } := hw.of_cfg rfl
  obtain ⟨f1, f2⟩ := updateNodes_facts _ _ hw0 _ _ _ _ _ _ _ ha.draw hdrawn
  have hcfg0 : s0.tank.toTankCfg = s.tank.toTankCfg := f1
  have hws : s0.tank.WellFormed := hw.of_cfg hcfg0
  have hr := ha.range _ hs.drawn
  have hstep : 0 ≤ s0.cfg.minutesPerStep := by rw [hs.cfg]; exact ha.step
  have he0 : ElementsOnly s0 := he.of_cfg hs.cfg
  have h10 : OneAtMost s0 := ⟨fun i j hi hj => h1.alone i j (by rw [hs.st] at hi; exact hi) (by rw [hs.st] at hj; exact hj),
    fun i hi => by rw [hs.isHeating]; exact h1.known i (by rw [hs.st] at hi; exact hi)⟩
  have hb := control_busy hexp (fun j => by rw [hs.cfg, hs.setpoint]; exact ha.sound j) ha.nodes
    hws.toConsistent (by rw [hcfg0]; exact ha.mixing) (by rw [hs.setpoint]; exact ha.setpoint)
    (by rw [hs.setpoint]; exact ha.absolute) he0 (by unfold FollowersInOrder; rw [hs.cfg]; exact hord) h10 htop
    (StepInv.init s0 lo hi (f2 ha.mixing) (fun j => (hr j).1)
      (fun j => (hr j).2) (fun i => by rw [hs.st]; rfl) hstep) hstep
    (fun i => by rw [hs.st]; exact ⟨rfl, rfl⟩) hctl
  obtain ⟨x1, x2, -⟩ := extraStep_frame h2
  obtain ⟨-, -, -, -, -, g6, -, -⟩ := finish_facts s2 u.tankAmbient u.dr
  rcases hb with hb | hb
  · obtain ⟨i, hi⟩ := hon
    rw [(g6 i).2.2.1, x2, hb i] at hi
    cases hi
  · rw [← hs.cfg, ← hb]
    exact Finset.sum_congr rfl fun i _ => by rw [(g6 i).1, x2]

/-! ## What elements deliver -/

/-- Every heat source has delivered what it used. -/
def Delivers (cfg : SimCfg n k) (s : Sim n k) : Prop :=
  s.cfg = cfg ∧ ∀ i, (s.st i).energyOutput_kWh = (s.st i).energyInput_kWh

theorem control_delivers {m : Libm} {fuel : ℕ} {dr : DR} {amb : ℚ} {s0 s' : Sim n k} (he : ElementsOnly s0)
    (h0 : ∀ i, (s0.st i).energyOutput_kWh = (s0.st i).energyInput_kWh) (h : s0.control m fuel dr amb = .ok s') (i : Fin k) :
    (s'.st i).energyOutput_kWh = (s'.st i).energyInput_kWh := by
  have H : HeatInduction m fuel dr amb s0.cfg (fun _ => True) (Delivers s0.cfg) (fun _ => True) := by
    refine ⟨fun _ hi => hi.1, fun s s' c hi => ⟨?_, fun i => ?_⟩, fun s s' j minutes _ hi _ _ h => ⟨⟨?_, fun i => ?_⟩,
      fun _ => trivial⟩, fun _ _ _ _ _ _ => trivial⟩
    · rw [c.rest]; exact hi.1
    · rw [c.st i]; exact hi.2 i
    · rw [addHeatParent_cfg h]; exact hi.1
    · obtain ⟨w, hw⟩ := he.element j
      have hw' : (s.cfg.src j).kind = .resistance w := by rw [hi.1]; exact hw
      have h2 : s.addHeat m fuel j amb minutes = .ok s' := by
        unfold Sim.addHeatParent at h
        rw [hw'] at h
        exact h
      obtain ⟨ek, e⟩ := addHeat_spec h2
      by_cases hij : i = j
      · subst hij
        unfold Sim.addHeatKind at ek
        rw [hw'] at ek
        obtain ⟨r1, r2⟩ := resistanceAddHeat_input ek
        dsimp only at r1 r2
        rw [r1, r2, hi.2 i]
      · rw [e]
        simp only [Function.update_of_ne hij]
        exact hi.2 i
  exact (H.control ⟨rfl, h0⟩ trivial h).2 i

/-- What a step without draw loses. -/
theorem losses_bound {t t' : Tank n} (hc : t.Consistent) {hours seconds amb hi air : ℚ} (hh : 0 ≤ hours)
    (h0 : t.standbyLosses_kJ = 0) (hends : 0 ≤ t.UA * t.fracAreaTop) (hside : 0 ≤ t.UA * t.fracAreaSide + t.fittingsUA)
    (hT : ∀ j, t.nodeTs j ≤ hi) (ha : air ≤ amb) (h : t.processLosses hours seconds amb = .ok t') :
    t'.standbyLosses_kJ ≤ (2 * (t.UA * t.fracAreaTop) + (t.UA * t.fracAreaSide + t.fittingsUA)) * hours * (hi - air) := by
  have e := C06_losses_value t t' hc hours seconds amb h
  rw [h0, sub_zero] at e
  rw [e]
  unfold Spec.standbyLoss
  have hn : (0 : ℚ) < n + 1 := by positivity
  have avg : (∑ j, t.nodeTs j) / (n + 1) ≤ hi := by
    rw [div_le_iff₀ hn]
    calc ∑ j, t.nodeTs j ≤ ∑ _j : Fin (n + 1), hi := Finset.sum_le_sum fun j _ => hT j
      _ = hi * (n + 1) := by simp; ring
  have p1 := mul_le_mul_of_nonneg_left (a := t.UA * t.fracAreaTop * hours)
    (show t.nodeTs 0 - amb ≤ hi - air by have := hT 0; linarith) (mul_nonneg hends hh)
  have p2 := mul_le_mul_of_nonneg_left (a := t.UA * t.fracAreaTop * hours)
    (show t.nodeTs (Fin.last n) - amb ≤ hi - air by have := hT (Fin.last n); linarith) (mul_nonneg hends hh)
  have p3 := mul_le_mul_of_nonneg_left (a := (t.UA * t.fracAreaSide + t.fittingsUA) * hours)
    (show (∑ j, t.nodeTs j) / (n + 1) - amb ≤ hi - air by linarith) (mul_nonneg hside hh)
  linarith

/-- **C92.** While a resistance heater recovers, the tank gains at least the heat of the weakest element less the
largest possible loss: a step without draw after which an element is on adds at least that much to the heat content. -/
theorem C92_gain (m : Libm) (hexp : ∀ x, 0 ≤ m.exp x) (fuel : ℕ) (s s' : Sim n k) (u : Sim.StepInput)
    (lo hi airLo airHi air P : ℚ) (hw : s.WorksBetween lo (hi : ℚ) airLo airHi)
    (hu : s.SuppliedBetween s.inletT u lo (hi : ℚ) airLo airHi) (hdraw : u.draw_L = 0)
    (hroom : s.cfg.doTempDepression = false) (hair : air ≤ u.tankAmbient)
    (he : ElementsOnly s) (hord : FollowersInOrder s) (h1 : OneAtMost s) (hP : AtLeast s P)
    (htop : u.dr.too = false ∧ u.dr.tot = false) (h : Sim.runOneStep m fuel s u = .ok s')
    (hon : ∃ i, (s'.st i).isOn = true) :
    tankHeat s.tank.volume_L s.tank.nodeTs + 60 * P * s.cfg.minutesPerStep - mostLost s hi air ≤
      tankHeat s.tank.volume_L s'.tank.nodeTs := by
  have ha := hw.accountable hu
  have hrun := C92_no_pause m hexp fuel s s' u lo hi ha he hord h1 htop h hon
  obtain ⟨-, -, -, hbal⟩ := C83_step m hexp fuel s s' u lo hi airLo airHi hw hu h
  obtain ⟨-, s0, s1, s2, hs, hctl, h2, rfl⟩ := runOneStep_ok h
  have hwf := ha.wellFormed
  have hdrawn := hs.drawn
  unfold Sim.DrawnTank at hdrawn
  have hw0 : Tank.WellFormed { s.tank with outletT := 0, standbyLosses_kJ := 0 } := hwf.of_cfg rfl
  obtain ⟨f1, f2⟩ := updateNodes_facts _ _ hw0 _ _ _ _ _ _ _ ha.draw hdrawn
  have hcfg0 : s0.tank.toTankCfg = s.tank.toTankCfg := f1
  have hws : s0.tank.WellFormed := hwf.of_cfg hcfg0
  have hr := ha.range _ hs.drawn
  have hstep : 0 ≤ s0.cfg.minutesPerStep := by rw [hs.cfg]; exact ha.step
  have he0 : ElementsOnly s0 := he.of_cfg hs.cfg
  have h10 : OneAtMost s0 := ⟨fun i j hi hj => h1.alone i j (by rw [hs.st] at hi; exact hi) (by rw [hs.st] at hj; exact hj),
    fun i hi => by rw [hs.isHeating]; exact h1.known i (by rw [hs.st] at hi; exact hi)⟩
  obtain ⟨x, inv⟩ := control_alone hexp (fun j => by rw [hs.cfg, hs.setpoint]; exact ha.sound j) ha.nodes
    hws.toConsistent (by rw [hcfg0]; exact ha.mixing) (by rw [hs.setpoint]; exact ha.setpoint)
    (by rw [hs.setpoint]; exact ha.absolute) he0 h10 htop
    (StepInv.init s0 lo hi (f2 ha.mixing) (fun j => (hr j).1)
      (fun j => (hr j).2) (fun i => by rw [hs.st]; rfl) hstep) hstep
    (fun i => by rw [hs.st]; exact ⟨rfl, rfl⟩) hctl
  have out := control_delivers he0 (fun i => by rw [hs.st]; rfl) hctl
  obtain ⟨x1, x2, -, -, -, -, -, x8⟩ := extraStep_frame h2
  have x8 := x8 hu.extra
  obtain ⟨-, -, -, -, g5, g6, -, -⟩ := finish_facts s2 u.tankAmbient u.dr
  -- what the elements delivered
  have hout : P / 60 * s.cfg.minutesPerStep ≤
      ∑ i, ((((s2.trackLocation u.tankAmbient).settleOutputs).updateTimer u.dr).st i).energyOutput_kWh := by
    rw [← hrun, Finset.mul_sum]
    refine Finset.sum_le_sum fun i _ => ?_
    obtain ⟨w, hwk⟩ := he0.element i
    rw [(g6 i).2.1, (g6 i).1, x2, out i, inv.energy i w hwk]
    have := mul_le_mul_of_nonneg_right (hP i w (by rw [← hs.cfg]; exact hwk)) (inv.step.run_nonneg i)
    linarith
  -- what was lost
  have hloss : 3600 * (((s2.trackLocation u.tankAmbient).settleOutputs).updateTimer u.dr).standbyLosses_kWh ≤
      mostLost s hi air := by
    have hk : s2.tank.standbyLosses_kJ = s0.tank.standbyLosses_kJ := by
      rw [x8, inv.step.same.1]
    rw [g5, hk]
    unfold Tank.updateNodes Tank.processDraw at hdrawn
    rw [hdraw, if_neg (lt_irrefl _)] at hdrawn
    dsimp only at hdrawn
    have hb := losses_bound (hi := hi) (air := air) hw0.toConsistent
      (by have := hw.step; positivity) rfl hw.ends hw.side (fun j => WithTop.coe_le_coe.mp (hw.water j).2)
      (by unfold Sim.tankAirT; rw [hroom]; exact hair) hdrawn
    unfold mostLost KJ_TO_KWH
    have e : (3600 : ℚ) * (s0.tank.standbyLosses_kJ / secPerHr) = s0.tank.standbyLosses_kJ := by
      unfold secPerHr secPerMin minPerHr; ring
    rw [e]
    exact hb
  rw [hbal]
  unfold Sim.inletHeat
  rw [if_pos hdraw, if_pos hdraw]
  linarith

/-- **C92.** A resistance heater recovers: without draws, top-off signals or extra heat, in air of at least `air` °C, its
elements are all off after at most `N` steps, if in `N` steps the weakest of them provides more than the heat that brings
all water to `hi` °C and the largest possible losses. The water never gets above `hi`, for instance the setpoint. -/
theorem C92_recovery (m : Libm) (hexp : ∀ x, 0 ≤ m.exp x) (fuel : ℕ) (s : ℕ → Sim n k) (u : ℕ → Sim.StepInput) (N : ℕ)
    (lo hi airLo airHi air P : ℚ) (hw : (s 0).WorksBetween lo (hi : ℚ) airLo airHi)
    (hu : ∀ t < N, (s 0).SuppliedBetween (s 0).inletT (u t) lo (hi : ℚ) airLo airHi) (hdraw : ∀ t < N, (u t).draw_L = 0)
    (hroom : (s 0).cfg.doTempDepression = false) (hair : ∀ t < N, air ≤ (u t).tankAmbient)
    (he : ElementsOnly (s 0)) (hord : FollowersInOrder (s 0)) (h1 : OneAtMost (s 0)) (hP : AtLeast (s 0) P)
    (htop : ∀ t < N, (u t).dr.too = false ∧ (u t).dr.tot = false)
    (h : ∀ t < N, Sim.runOneStep m fuel (s t) (u t) = .ok (s (t + 1)))
    (hN : heatTo (s 0) hi < N * (60 * P * (s 0).cfg.minutesPerStep - mostLost (s 0) hi air)) :
    ∃ t < N, ∀ i, ((s (t + 1)).st i).isOn = false := by
  by_contra hcon
  push Not at hcon
  have key : ∀ t ≤ N, (s t).WorksBetween lo (hi : ℚ) airLo airHi ∧ (s t).cfg = (s 0).cfg ∧
      (s t).tank.toTankCfg = (s 0).tank.toTankCfg ∧ (s t).inletT = (s 0).inletT ∧ OneAtMost (s t) ∧
      tankHeat (s 0).tank.volume_L (s 0).tank.nodeTs +
        t * (60 * P * (s 0).cfg.minutesPerStep - mostLost (s 0) hi air) ≤
        tankHeat (s 0).tank.volume_L (s t).tank.nodeTs := by
    intro t
    induction t with
    | zero => intro _; exact ⟨hw, rfl, rfl, rfl, h1, by simp⟩
    | succ t ih =>
      intro ht
      have hlt : t < N := ht
      obtain ⟨i1, i2, i3, i4, i5, i6⟩ := ih hlt.le
      have hut : (s t).SuppliedBetween (s t).inletT (u t) lo (hi : ℚ) airLo airHi := by
        obtain ⟨a1, a2, a3, a4, a5, a6, a7, a8, a9⟩ := hu t hlt
        refine ⟨a1, a2, ?_, a4, ?_, a6, a7, ?_, ?_⟩
        · rw [i4]; exact a3
        · have : (s t).tank.hasHeatExchanger = (s 0).tank.hasHeatExchanger := by rw [i3]
          rw [this]
          have e2 : (s t).tank.nodeHeatExchangerEffectiveness = (s 0).tank.nodeHeatExchangerEffectiveness := by rw [i3]
          have e3 : (s t).tank.nodeVolume_L = (s 0).tank.nodeVolume_L := by rw [i3]
          rw [e2, e3]
          exact a5
        · rw [i2]; exact a8
        · rw [i2]; exact a9
      have het : ElementsOnly (s t) := he.of_cfg i2
      have hordt : FollowersInOrder (s t) := by unfold FollowersInOrder; rw [i2]; exact hord
      have hPt : AtLeast (s t) P := by unfold AtLeast; rw [i2]; exact hP
      have ha := i1.accountable hut
      obtain ⟨-, -, j1, -⟩ := C83_step m hexp fuel _ _ _ lo hi airLo airHi i1 hut (h t hlt)
      obtain ⟨-, -, -, -, j2, j3, -, j4, -⟩ := step_facts m hexp fuel _ _ _ lo hi ha (h t hlt)
      obtain ⟨j5, -⟩ := C82_step m hexp fuel _ _ _ lo hi ha het i5 (htop t hlt) (h t hlt)
      obtain ⟨i, hi'⟩ := hcon t hlt
      have g := C92_gain m hexp fuel _ _ _ lo hi airLo airHi air P i1 hut (hdraw t hlt) (by rw [i2]; exact hroom)
        (hair t hlt) het hordt i5 hPt (htop t hlt) (h t hlt) ⟨i, by simpa using hi'⟩
      refine ⟨j1, j3.trans i2, j2.trans i3, j4.trans i4, j5, ?_⟩
      have ev : (s t).tank.volume_L = (s 0).tank.volume_L := by rw [i3]
      have el : mostLost (s t) hi air = mostLost (s 0) hi air := by unfold mostLost; rw [i3, i2]
      rw [ev, el, i2] at g
      push_cast
      linarith
  obtain ⟨i1, -, i3, -, -, i6⟩ := key N le_rfl
  have hmax : tankHeat (s 0).tank.volume_L (s N).tank.nodeTs ≤
      tankHeat (s 0).tank.volume_L (fun _ : Fin (n + 1) => hi) := by
    unfold tankHeat waterHeat
    refine Finset.sum_le_sum fun j _ => ?_
    have hv := hw.volume
    exact mul_le_mul_of_nonneg_left (WithTop.coe_le_coe.mp (i1.water j).2) (by positivity)
  unfold heatTo at hN
  linarith

/-! ## A heater that recovers -/

/-- `turnSim` near the end of its recovery: water at 44 and 45 °C, the lower element of 4 kW on, setpoint 50 °C. -/
def almostSim : Sim 1 2 :=
  { turnSim with
    tank := { turnSim.tank with nodeTs := ![44, 45] }
    st := ![⟨false, false, 0, 0, 0⟩, ⟨true, false, 0, 0, 0⟩]
    isHeating := true }

/-- A minute without a draw in air of 20 °C. -/
def quietMinute : Sim.StepInput := ⟨0, 20, 20, ⟨false, false, false, false⟩, 0, 10, []⟩

theorem almostSim_between : almostSim.WorksBetween 10 ((50 : ℚ) : WithTop ℚ) 0 40 where
  nodes := by norm_num
  volume := by decide +kernel
  nodeVolume := by decide +kernel
  nodeCp := by decide +kernel
  inlet := by decide +kernel
  inlet2 := by decide +kernel
  mixBelow := by decide +kernel
  mixing := rfl
  effectiveness h := by cases h
  step := by decide +kernel
  absolute := by decide +kernel
  ends := by decide +kernel
  side := by decide +kernel
  gentle := by decide +kernel
  setpoint := WithTop.coe_le_coe.mpr (by decide +kernel)
  water j := by
    have : ∀ j, 10 ≤ almostSim.tank.nodeTs j ∧ almostSim.tank.nodeTs j ≤ 50 := by decide +kernel
    exact ⟨(this j).1, WithTop.coe_le_coe.mpr (this j).2⟩
  room h := by cases h
  sound i air _ := by
    fin_cases i
    all_goals
      refine ⟨fun p hp => ?_, fun c hc => ?_, fun c hc => ?_, fun c hc => ?_⟩
      · injection hp with hp
        rw [← hp]
        exact ⟨by norm_num, by decide +kernel, by decide +kernel⟩
      all_goals cases hc

theorem almostSim_supplied : almostSim.SuppliedBetween almostSim.inletT quietMinute 10 ((50 : ℚ) : WithTop ℚ) 0 40 where
  draw := by decide +kernel
  second := by decide +kernel
  inlet := lies_coe.mpr (by decide +kernel)
  inlet2 := .inl rfl
  exchanger h := by cases h
  extra := rfl
  around := lies_coe.mpr (by decide +kernel)
  source _ := lies_coe.mpr (by decide +kernel)
  cooled h := by cases h

theorem almostSim_elements : ElementsOnly almostSim ∧ FollowersInOrder almostSim ∧ OneAtMost almostSim ∧
    AtLeast almostSim 4 := by
  refine ⟨turnSim_elements.1.of_cfg rfl, ?_, ⟨?_, fun _ _ => rfl⟩, ?_⟩
  · intro i f h
    fin_cases i
    · have : (1 : Fin 2) = f := by injection h
      rw [← this]; decide
    · cases h
  · have : ∀ i : Fin 2, (almostSim.st i).isOn = true → i = 1 := by decide +kernel
    intro i j hi hj
    rw [this i hi, this j hj]
  · intro i w h
    fin_cases i
    · injection h with h; rw [← h]; norm_num
    · injection h with h; rw [← h]

/-- Its states minute by minute. -/
def almostStates : ℕ → Sim 1 2
  | 0 => almostSim
  | t + 1 => match Sim.runOneStep sampleLibm 5 (almostStates t) quietMinute with
    | .ok s => s
    | .error _ => almostSim

/-- The hypotheses are met with `N = 7`, and recovery takes some time: the element is still on after three minutes. -/
example : almostStates 0 = almostSim ∧
    (∀ t < 7, Sim.runOneStep sampleLibm 5 (almostStates t) quietMinute = .ok (almostStates (t + 1))) ∧
    heatTo almostSim 50 < (7 : ℕ) * (60 * 4 * almostSim.cfg.minutesPerStep - mostLost almostSim 50 20) ∧
    ((almostStates 3).st 1).isOn = true ∧ ∑ i, ((almostStates 3).st i).runtime_min = 1 ∧
    ((almostStates 7).st 1).isOn = false := by
  refine ⟨rfl, fun t ht => ?_, by decide +kernel, by decide +kernel, by decide +kernel, by decide +kernel⟩
  have ok : ∀ t < 7, (Sim.runOneStep sampleLibm 5 (almostStates t) quietMinute).isOk = true := by decide +kernel
  have := ok t ht
  rw [almostStates]
  cases h : Sim.runOneStep sampleLibm 5 (almostStates t) quietMinute with
  | ok s => rfl
  | error e => rw [h] at this; cases this

end HPWH
