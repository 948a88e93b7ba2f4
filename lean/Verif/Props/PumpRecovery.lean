import Verif.Spec.PumpRecovery
import Verif.Props.Recovery
import Verif.Props.Passes

/-! # C106: a water heater with one heat pump heats without pause and recovers -/

namespace HPWH

open Spec
open _root_.HPWH.Units

variable {n k : ℕ}

/-! ## Without pause -/

/-- If the only heat source is on after the heating of a step, it has run for the whole step. -/
theorem control_whole {m : Libm} {fuel : ℕ} {dr : DR} {amb : ℚ} {s s' : Sim n 1} (hb : (s.cfg.src 0).backup = none)
    (hf : (s.cfg.src 0).followedBy = none) (h : Sim.control m fuel dr amb s = .ok s') (hon : (s'.st 0).isOn = true) :
    ∃ a, CtrlEq s a ∧ (a.st 0).lockedOut = false ∧ (a.st 0).isOn = true ∧ ∃ b,
      a.addHeatParent m fuel 0 amb s.cfg.minutesPerStep = .ok b ∧ CtrlEq b s' ∧
      s.cfg.minutesPerStep ≤ (s'.st 0).runtime_min := by
  unfold Sim.control at h
  rw [bind_ok_iff] at h
  obtain ⟨s1, h1, h⟩ := h
  have hst : s'.st = s1.st ∧ CtrlEq s1 s' := by
    rw [← Except.ok.inj h]
    split_ifs
    · exact ⟨rfl, .heating s1 false⟩
    · exact ⟨rfl, .refl s1⟩
  rw [hst.1] at hon
  suffices hs : ∃ a, CtrlEq s a ∧ (a.st 0).lockedOut = false ∧ (a.st 0).isOn = true ∧
      a.addHeatParent m fuel 0 amb s.cfg.minutesPerStep = .ok s1 ∧ s.cfg.minutesPerStep ≤ (s1.st 0).runtime_min by
    obtain ⟨a, c1, c2, c3, c4, c5⟩ := hs
    exact ⟨a, c1, c2, c3, s1, c4, hst.2, by rw [hst.1]; exact c5⟩
  unfold Sim.normalControl at h1
  by_cases hd : (dr.loc && dr.lor) = true
  · rw [if_pos hd] at h1
    rw [← Except.ok.inj h1] at hon
    cases hon
  rw [if_neg hd, bind_ok_iff] at h1
  obtain ⟨a, ha, h1⟩ := h1
  rw [bind_ok_iff] at h1
  obtain ⟨b, hb1, h1⟩ := h1
  have cb := (CtrlEq.topOff ha).trans (CtrlEq.chooseLoop hb1)
  have e : List.finRange 1 = [0] := by decide
  rw [e, Sim.heatSrcLoop, bind_ok_iff] at h1
  obtain ⟨r, hr, h1⟩ := h1
  rw [Sim.heatSrcLoop] at h1
  have h1 := Except.ok.inj h1
  subst h1
  unfold Sim.heatBody at hr
  rw [bind_ok_iff] at hr
  obtain ⟨b1, hl, hr⟩ := hr
  have cb1 := cb.trans (CtrlEq.applyLocks hl)
  by_cases hon1 : (b1.st 0).isOn = true
  · have hunl : (b1.st 0).lockedOut = false := by
      by_contra hc
      have hc : (b1.st 0).lockedOut = true := by simpa using hc
      unfold Sim.applyLocks at hl
      rw [bind_ok_iff] at hl
      obtain ⟨b2, -, hl⟩ := hl
      rw [cb.cfg, hb] at hl
      by_cases hc2 : (b2.st 0).lockedOut = true
      · simp only [hc2, Option.isNone_none, Bool.and_self, if_true] at hl
        rw [← Except.ok.inj hl] at hon1
        simp [Sim.disengage, Sim.setSt] at hon1
      · have hc2 : (b2.st 0).lockedOut = false := by simpa using hc2
        simp only [hc2, Bool.false_and, Bool.false_eq_true, if_false] at hl
        rw [← Except.ok.inj hl, hc2] at hc
        cases hc
    rw [if_pos hon1, bind_ok_iff] at hr
    obtain ⟨pick, hp, hr⟩ := hr
    unfold Sim.pickSource at hp
    rw [hunl] at hp
    simp only [Bool.false_eq_true, if_false] at hp
    rw [← Except.ok.inj hp] at hr
    dsimp only at hr
    unfold Sim.runSource at hr
    rw [bind_ok_iff] at hr
    obtain ⟨s2, h2, hr⟩ := hr
    have hcfg2 : s2.cfg = s.cfg := (addHeatParent_cfg h2).trans cb1.cfg
    by_cases hearly : (s2.st 0).runtime_min < s.cfg.minutesPerStep
    · exfalso
      rw [if_pos hearly, bind_ok_iff] at hr
      obtain ⟨s3, h3, hr⟩ := hr
      rw [← Except.ok.inj hr] at hon
      unfold Sim.afterEarly at h3
      dsimp only at h3
      rw [bind_ok_iff] at h3
      obtain ⟨fo, hfo, h3⟩ := h3
      have hfo' : fo = none := by
        unfold Sim.follower at hfo
        have : ((s2.disengage 0).cfg.src 0).followedBy = none := by
          change (s2.cfg.src 0).followedBy = none
          rw [hcfg2]; exact hf
        rw [this] at hfo
        exact (Except.ok.inj hfo).symm
      subst hfo'
      dsimp only at h3
      rw [bind_ok_iff] at h3
      obtain ⟨mx, -, h3⟩ := h3
      rw [hcfg2, hb] at h3
      have : s2.disengage 0 = s3 := by
        cases mx <;> exact Except.ok.inj h3
      rw [← this] at hon
      simp [Sim.disengage, Sim.setSt] at hon
    · rw [if_neg hearly] at hr
      rw [← Except.ok.inj hr]
      exact ⟨b1, cb1, hunl, hon1, h2, not_lt.mp hearly⟩
  · rw [if_neg hon1] at hr
    rw [← Except.ok.inj hr] at hon
    exact absurd hon hon1

/-! ## What a heat pump delivers -/

/-- A heat pump that runs delivers at least the least of its output powers. -/
theorem addHeatKind_output {m : Libm} (hexp : ∀ x, 0 ≤ m.exp x) {fuel : ℕ} {s : SourceCfg n k} {c : CondCfg}
    {p p' : Plant n} {st st' : SourceState} {x amb minutes lo hi P : ℚ} (hk : s.kind = .condenser c)
    (hS : s.Sound x amb lo (hi : ℚ)) (hx : p.setpoint = x ∨ p.setpoint = c.maxOutT) (hn : n + 1 ≤ 10000)
    (ht : p.tank.Consistent) (hm : Monotone p.tank.nodeTs) (hT : ∀ j, lo ≤ p.tank.nodeTs j ∧ p.tank.nodeTs j ≤ hi)
    (hset : p.setpoint ≤ hi) (hmin : 0 ≤ minutes)
    (hP : ∀ water perf, lo ≤ water → water ≤ hi → c.getPerformance s.airflowFreedom p.setpoint amb water = .ok perf →
      1000 * P ≤ perf.outputPower_W)
    (h : Sim.addHeatKind m fuel s p st amb minutes = .ok (p', st')) :
    P * (st'.runtime_min / 60) ≤ st'.energyOutput_kWh - st.energyOutput_kWh := by
  have hpos := hS.output c hk _ hx
  unfold Sim.addHeatKind at h
  rw [hk] at h
  dsimp only at h
  by_cases hc : c.configuration = .external
  · obtain ⟨h1, h2, h3⟩ := hS.external c hk hc
    have hsp : c.isMultipass = false := by
      cases hmu : c.isMultipass with
      | false => rfl
      | true => exact absurd (h2 hmu).2 (WithTop.coe_ne_top)
    unfold condenserAddHeat at h
    rw [hc] at h
    have may : ∀ w, p.MayDraw c w → lo ≤ w ∧ w ≤ hi := fun w hw => by
      obtain ⟨⟨j, hj⟩, hw2⟩ := hw
      exact ⟨(hT j).1.trans hj, ((hw2 hsp).le.trans (min_le_right _ _)).trans hset⟩
    obtain ⟨-, -, -, -, -, -, -, r, -⟩ := C16_single_pass_energy fuel s c p p' st st' amb minutes hmin ht h1 hsp
      (fun w perf hw hpf => hpos w perf (may w hw).1 (WithTop.coe_le_coe.mpr (may w hw).2) hpf)
      (fun q f _ _ hf => fractToMeetLoop_nonneg q _ 1 f (by norm_num)
        (fun l hl g hg => UpperLimit.fract_nonneg (h3 hsp l hl) q hg) hf) h
    have := r (1000 * P) fun w perf hw hpf => hP w perf (may w hw).1 (may w hw).2 hpf
    linarith
  · have hi' : internalAddHeat m.exp s c p st amb minutes = .ok (p', st') := by
      unfold condenserAddHeat at h
      revert h; cases hcc : c.configuration <;> simp_all
    obtain ⟨hm0, w, perf, hw, hpf⟩ := internalAddHeat_inv hi'
    obtain ⟨hd, hshr⟩ := hS.internal c hk hc
    obtain ⟨hw1, hw2⟩ := C22_weighted_average_range s.heatDist hd p.tank.nodeTs w lo hi hw hT
    obtain ⟨q, st2, hq, hr0, -, e, -⟩ := C15_condenser_accounts m.exp hexp s c p st amb minutes
      (lt_of_le_of_ne hmin (Ne.symm hm0)) ht ((stratified_iff_monotone _).mpr hm) hd hshr hn hc w perf hw hpf
      (hpos w perf hw1 (WithTop.coe_le_coe.mpr hw2) hpf) fuel
    rw [h] at hq
    obtain ⟨rfl, rfl⟩ := Prod.mk.inj (Except.ok.inj hq)
    rw [e]
    refine mul_le_mul_of_nonneg_right ?_ (by linarith)
    have := hP w perf hw1 hw2 hpf
    linarith

theorem addHeatParent_output {m : Libm} (hexp : ∀ x, 0 ≤ m.exp x) {fuel : ℕ} {s0 s s' : Sim n 1} {c : CondCfg}
    {amb minutes lo hi P : ℚ} (hk : (s0.cfg.src 0).kind = .condenser c)
    (hS : (s0.cfg.src 0).Sound s0.setpoint amb lo (hi : ℚ)) (hn : n + 1 ≤ 10000) (ht : s0.tank.Consistent)
    (hset : s0.setpoint ≤ hi) (hmin : 0 ≤ minutes)
    (hP : ∀ x, x = s0.setpoint ∨ x = c.maxOutT → ∀ water perf, lo ≤ water → water ≤ hi →
      c.getPerformance (s0.cfg.src 0).airflowFreedom x amb water = .ok perf → 1000 * P ≤ perf.outputPower_W)
    (inv : StepInv s0 s lo (hi : ℚ)) (h : s.addHeatParent m fuel 0 amb minutes = .ok s') :
    P * ((s'.st 0).runtime_min / 60) ≤ (s'.st 0).energyOutput_kWh - (s.st 0).energyOutput_kWh := by
  obtain ⟨q1, q2, -, -, -⟩ := inv.same
  have ht' : s.tank.Consistent := by
    rw [q1]; exact ⟨ht.volume_pos, ht.nodeVolume, ht.nodeCp⟩
  have hT : ∀ j, lo ≤ s.tank.nodeTs j ∧ s.tank.nodeTs j ≤ hi := fun j =>
    ⟨inv.lower j, WithTop.coe_le_coe.mp (inv.upper j)⟩
  rcases addHeatParent_cases h with h | ⟨c', s2, hc, -, hm, -, h2, hr⟩
  · obtain ⟨hk', -⟩ := addHeat_spec h
    rw [inv.cfg] at hk'
    exact addHeatKind_output hexp hk hS (.inl q2) hn ht' inv.mono hT (by rw [q2]; exact hset) hmin
      (by rw [q2]; exact hP _ (.inl rfl)) hk'
  · rw [inv.cfg, hk] at hc
    obtain rfl : c = c' := by injection hc
    obtain ⟨hk', -⟩ := addHeat_spec h2
    have e : s'.st = s2.st := by
      rcases hr with ⟨-, e⟩ | ⟨-, e⟩ <;> rw [e]
    rw [e]
    rw [inv.cfg] at hk'
    exact addHeatKind_output hexp (x := s0.setpoint) (p := { s.toPlant with setpoint := c.maxOutT }) hk hS (.inr rfl) hn ht'
      inv.mono hT (by rw [q2] at hm; exact hm.trans hset) hmin (hP _ (.inr rfl)) hk'

/-! ## Recovery -/

/-- **C106.** A heat pump that is alone heats without pause: if it is on after a step, then it has run for the whole step.
So in each step it runs throughout, or at its end it is off. -/
theorem C106_no_pause (m : Libm) (hexp : ∀ x, 0 ≤ m.exp x) (fuel : ℕ) (s s' : Sim n 1) (u : Sim.StepInput) (lo : ℚ)
    (hi : WithTop ℚ) (ha : s.Accountable u lo hi) (hb : (s.cfg.src 0).backup = none)
    (hf : (s.cfg.src 0).followedBy = none) (h : Sim.runOneStep m fuel s u = .ok s') (hon : (s'.st 0).isOn = true) :
    (s'.st 0).runtime_min = s.cfg.minutesPerStep := by
  obtain ⟨-, -, hrun, -⟩ := step_facts m hexp fuel s s' u lo hi ha h
  obtain ⟨-, s0, s1, s2, hs, hctl, h2, rfl⟩ := runOneStep_ok h
  obtain ⟨x1, x2, -⟩ := extraStep_frame h2
  obtain ⟨-, -, -, -, -, g6, -, -⟩ := finish_facts s2 u.tankAmbient u.dr
  rw [(g6 0).2.2.1, x2] at hon
  obtain ⟨a, -, -, -, b, -, -, hle⟩ := control_whole (by rw [hs.cfg]; exact hb) (by rw [hs.cfg]; exact hf) hctl hon
  rw [hs.cfg] at hle
  refine le_antisymm (hrun 0).2 ?_
  rw [(g6 0).1, x2]
  exact hle

/-- **C106.** While a water heater with one heat pump recovers, the tank gains at least what the heat pump provides at the
least of its output powers less the largest possible loss: a step without draw after which it is on adds at least that
much to the heat content. -/
theorem C106_gain (m : Libm) (hexp : ∀ x, 0 ≤ m.exp x) (fuel : ℕ) (s s' : Sim n 1) (u : Sim.StepInput)
    (lo hi airLo airHi air P : ℚ) (hw : s.WorksBetween lo (hi : ℚ) airLo airHi)
    (hu : s.SuppliedBetween s.inletT u lo (hi : ℚ) airLo airHi) (hdraw : u.draw_L = 0)
    (hroom : s.cfg.doTempDepression = false) (hair : air ≤ u.tankAmbient)
    (hp : OnePump s P lo hi airLo airHi) (h : Sim.runOneStep m fuel s u = .ok s') (hon : (s'.st 0).isOn = true) :
    tankHeat s.tank.volume_L s.tank.nodeTs + 60 * P * s.cfg.minutesPerStep - mostLost s hi air ≤
      tankHeat s.tank.volume_L s'.tank.nodeTs := by
  have ha := hw.accountable hu
  have hrun := C106_no_pause m hexp fuel s s' u lo hi ha hp.noBackup hp.noFollower h hon
  obtain ⟨-, -, -, hbal⟩ := C83_step m hexp fuel s s' u lo hi airLo airHi hw hu h
  obtain ⟨-, s0, s1, s2, hs, hctl, h2, rfl⟩ := runOneStep_ok h
  have hwf := ha.wellFormed
  have hdrawn := hs.drawn
  unfold Sim.DrawnTank at hdrawn
  have hw0 : Tank.WellFormed { s.tank with outletT := 0, standbyLosses_kJ := 0 } := hwf.of_cfg rfl
  obtain ⟨f1, f2⟩ := updateNodes_facts _ _ hw0 _ _ _ _ _ _ _ ha.draw hdrawn
  have hcfg0 : s0.tank.toTankCfg = s.tank.toTankCfg := f1
  have hws : s0.tank.WellFormed := hwf.of_cfg hcfg0
  have hr := ha.range _ hs.drawn
  have hstep : 0 ≤ s0.cfg.minutesPerStep := by rw [hs.cfg]; exact ha.step
  have hS : (s0.cfg.src 0).Sound s0.setpoint (s.sourceAirT u) lo (hi : ℚ) := by
    rw [hs.cfg, hs.setpoint]; exact ha.sound 0
  have hset : s0.setpoint ≤ hi := by rw [hs.setpoint]; exact WithTop.coe_le_coe.mp ha.setpoint
  have init : StepInv s0 s0 lo (hi : ℚ) := StepInv.init s0 lo hi (f2 ha.mixing) (fun j => (hr j).1)
      (fun j => (hr j).2) (fun i => by rw [hs.st]; rfl) hstep
  obtain ⟨x1, x2, -, -, -, -, -, x8⟩ := extraStep_frame h2
  have x8 := x8 hu.extra
  obtain ⟨-, -, -, -, g5, g6, -, -⟩ := finish_facts s2 u.tankAmbient u.dr
  rw [(g6 0).2.2.1, x2] at hon
  obtain ⟨a, ca, -, -, b, hab, cb, -⟩ :=
    control_whole (by rw [hs.cfg]; exact hp.noBackup) (by rw [hs.cfg]; exact hp.noFollower) hctl hon
  obtain ⟨c, hc⟩ := hp.pump
  have hair' : airLo ≤ s.sourceAirT u ∧ s.sourceAirT u ≤ airHi := by
    unfold Sim.sourceAirT
    rw [hroom]
    exact lies_coe.mp (hu.source hroom)
  have inva := init.ctrl ca
  have hout := addHeatParent_output hexp (c := c) (P := P) (by rw [hs.cfg]; exact hc) hS ha.nodes hws.toConsistent
    hset hstep (fun x hx water perf w1 w2 hpf => hp.output c hc x (by rw [← hs.setpoint]; exact hx) _ water perf hair'.1
      hair'.2 w1 w2 (by rw [← hs.cfg]; exact hpf)) inva hab
  obtain ⟨invb, -, -⟩ := StepInv.heat hexp hS ha.nodes hws.toConsistent (by rw [hcfg0]; exact ha.mixing)
    (WithTop.coe_le_coe.mpr hset) (by rw [hs.setpoint]; exact ha.absolute) inva hstep le_rfl hab
  have inv1 := invb.ctrl cb
  -- what the heat pump delivered
  have hdel : P / 60 * s.cfg.minutesPerStep ≤
      ∑ i, ((((s2.trackLocation u.tankAmbient).settleOutputs).updateTimer u.dr).st i).energyOutput_kWh := by
    rw [Fin.sum_univ_one, ← hrun, (g6 0).2.1, (g6 0).1, x2, cb.output, cb.runtime]
    have z : (a.st 0).energyOutput_kWh = 0 := by rw [ca.output, hs.st]; rfl
    rw [z] at hout
    linarith
  -- what was lost
  have hloss : 3600 * (((s2.trackLocation u.tankAmbient).settleOutputs).updateTimer u.dr).standbyLosses_kWh ≤
      mostLost s hi air := by
    have hk : s2.tank.standbyLosses_kJ = s0.tank.standbyLosses_kJ := by
      rw [x8, inv1.same.1]
    rw [g5, hk]
    unfold Tank.updateNodes Tank.processDraw at hdrawn
    rw [hdraw, if_neg (lt_irrefl _)] at hdrawn
    dsimp only at hdrawn
    have hb := losses_bound (hi := hi) (air := air) hw0.toConsistent
      (by have := hw.step; positivity) rfl hw.ends hw.side (fun j => WithTop.coe_le_coe.mp (hw.water j).2)
      (by unfold Sim.tankAirT; rw [hroom]; exact hair) hdrawn
    unfold mostLost KJ_TO_KWH
    have e : (3600 : ℚ) * (s0.tank.standbyLosses_kJ / secPerHr) = s0.tank.standbyLosses_kJ := by
      unfold secPerHr secPerMin minPerHr; ring
    rw [e]
    exact hb
  rw [hbal]
  unfold Sim.inletHeat
  rw [if_pos hdraw, if_pos hdraw]
  linarith

/-- **C106.** A water heater with one heat pump recovers: without draws or extra heat, in air of at least `air` °C around
the tank, the heat pump is off after at most `N` steps, if in `N` steps it provides more than the heat that brings all
water to `hi` °C and the largest possible losses. The water never gets above `hi`, for instance the setpoint. -/
theorem C106_recovery (m : Libm) (hexp : ∀ x, 0 ≤ m.exp x) (fuel : ℕ) (s : ℕ → Sim n 1) (u : ℕ → Sim.StepInput) (N : ℕ)
    (lo hi airLo airHi air P : ℚ) (hw : (s 0).WorksBetween lo (hi : ℚ) airLo airHi)
    (hu : ∀ t < N, (s 0).SuppliedBetween (s 0).inletT (u t) lo (hi : ℚ) airLo airHi) (hdraw : ∀ t < N, (u t).draw_L = 0)
    (hroom : (s 0).cfg.doTempDepression = false) (hair : ∀ t < N, air ≤ (u t).tankAmbient)
    (hp : OnePump (s 0) P lo hi airLo airHi) (h : ∀ t < N, Sim.runOneStep m fuel (s t) (u t) = .ok (s (t + 1)))
    (hN : heatTo (s 0) hi < N * (60 * P * (s 0).cfg.minutesPerStep - mostLost (s 0) hi air)) :
    ∃ t < N, ((s (t + 1)).st 0).isOn = false := by
  by_contra hcon
  push Not at hcon
  have key : ∀ t ≤ N, (s t).WorksBetween lo (hi : ℚ) airLo airHi ∧ (s t).cfg = (s 0).cfg ∧
      (s t).tank.toTankCfg = (s 0).tank.toTankCfg ∧ (s t).inletT = (s 0).inletT ∧ (s t).setpoint = (s 0).setpoint ∧
      tankHeat (s 0).tank.volume_L (s 0).tank.nodeTs +
        t * (60 * P * (s 0).cfg.minutesPerStep - mostLost (s 0) hi air) ≤
        tankHeat (s 0).tank.volume_L (s t).tank.nodeTs := by
    intro t
    induction t with
    | zero => intro _; exact ⟨hw, rfl, rfl, rfl, rfl, by simp⟩
    | succ t ih =>
      intro ht
      have hlt : t < N := ht
      obtain ⟨i1, i2, i3, i4, i5, i6⟩ := ih hlt.le
      have hut : (s t).SuppliedBetween (s t).inletT (u t) lo (hi : ℚ) airLo airHi := by
        obtain ⟨a1, a2, a3, a4, a5, a6, a7, a8, a9⟩ := hu t hlt
        refine ⟨a1, a2, ?_, a4, ?_, a6, a7, ?_, ?_⟩
        · rw [i4]; exact a3
        · have : (s t).tank.hasHeatExchanger = (s 0).tank.hasHeatExchanger := by rw [i3]
          rw [this]
          have e2 : (s t).tank.nodeHeatExchangerEffectiveness = (s 0).tank.nodeHeatExchangerEffectiveness := by rw [i3]
          have e3 : (s t).tank.nodeVolume_L = (s 0).tank.nodeVolume_L := by rw [i3]
          rw [e2, e3]
          exact a5
        · rw [i2]; exact a8
        · rw [i2]; exact a9
      have hpt : OnePump (s t) P lo hi airLo airHi := by
        obtain ⟨b1, b2, b3, b4⟩ := hp
        exact ⟨by rw [i2]; exact b1, by rw [i2]; exact b2, by rw [i2]; exact b3, by rw [i2, i5]; exact b4⟩
      have ha := i1.accountable hut
      obtain ⟨-, -, j1, -⟩ := C83_step m hexp fuel _ _ _ lo hi airLo airHi i1 hut (h t hlt)
      obtain ⟨-, -, -, -, j2, j3, j5, j4, -⟩ := step_facts m hexp fuel _ _ _ lo hi ha (h t hlt)
      have g := C106_gain m hexp fuel _ _ _ lo hi airLo airHi air P i1 hut (hdraw t hlt) (by rw [i2]; exact hroom)
        (hair t hlt) hpt (h t hlt) (by simpa using hcon t hlt)
      refine ⟨j1, j3.trans i2, j2.trans i3, j4.trans i4, j5.trans i5, ?_⟩
      have ev : (s t).tank.volume_L = (s 0).tank.volume_L := by rw [i3]
      have el : mostLost (s t) hi air = mostLost (s 0) hi air := by unfold mostLost; rw [i3, i2]
      rw [ev, el, i2] at g
      push_cast
      linarith
  obtain ⟨i1, -, i3, -, -, i6⟩ := key N le_rfl
  have hmax : tankHeat (s 0).tank.volume_L (s N).tank.nodeTs ≤
      tankHeat (s 0).tank.volume_L (fun _ : Fin (n + 1) => hi) := by
    unfold tankHeat waterHeat
    refine Finset.sum_le_sum fun j _ => ?_
    have hv := hw.volume
    exact mul_le_mul_of_nonneg_left (WithTop.coe_le_coe.mp (i1.water j).2) (by positivity)
  unfold heatTo at hN
  linarith

/-! ## A water heater that recovers -/

/-- A heat pump of 4 kW with a submerged condenser. -/
def soleCond : CondCfg := { sampleCond with evaluate := fun _ _ _ => ⟨1000, 4000, 4⟩ }

/-- The tank of `almostSim`, with water at 44 and 45 °C and setpoint 50 °C, with a heat pump that is on. -/
def soleSim : Sim 1 1 where
  toPlant := almostSim.toPlant
  cfg :=
    { src := fun _ =>
        { kind := .condenser soleCond, isVIP := false, backup := none, companion := none, followedBy := none
          heatDist := [⟨1 / 2, 1⟩, ⟨1, 0⟩], shrinkageT := 1, lowestNode := 0
          turnOn := [⟨.temp true .bottom, 40, .less, false, false, ""⟩]
          shutOff := [], standby := none
          minT := -100, maxT := 100, depressesTemperature := false
          airflowFreedom := 1, externalInlet := 1, externalOutlet := 0 }
      minutesPerStep := 1, doTempDepression := false, maxDepression := 3, timerLimitTOT := 60
      compressorIndex := some 0, lowestElementIndex := none, vipIndex := none
      setpointFixed := false, isStorageTank := false, canScale := false, heightMap := [] }
  st := fun _ => ⟨true, false, 0, 0, 0⟩
  isHeating := true
  locationT := -500
  timerTOT := 0
  energyRemoved_kWh := 0
  standbyLosses_kWh := 0
  extraEnergyInput_kWh := 0

theorem soleSim_performance {c : CondCfg} (hc : (soleSim.cfg.src 0).kind = .condenser c) {x air water : ℚ} {perf : Perf}
    (h : c.getPerformance (soleSim.cfg.src 0).airflowFreedom x air water = .ok perf) : perf.outputPower_W = 4000 := by
  obtain rfl : soleCond = c := by injection hc
  have : perf = ⟨1000, 4000, 4⟩ := by
    rw [← Except.ok.inj h]
    norm_num [soleSim, soleCond, sampleCond]
  rw [this]

theorem soleSim_between : soleSim.WorksBetween 10 ((50 : ℚ) : WithTop ℚ) 0 40 where
  nodes := by norm_num
  volume := almostSim_between.volume
  nodeVolume := almostSim_between.nodeVolume
  nodeCp := almostSim_between.nodeCp
  inlet := almostSim_between.inlet
  inlet2 := almostSim_between.inlet2
  mixBelow := almostSim_between.mixBelow
  mixing := rfl
  effectiveness h := by cases h
  step := by decide +kernel
  absolute := almostSim_between.absolute
  ends := almostSim_between.ends
  side := almostSim_between.side
  gentle := almostSim_between.gentle
  setpoint := almostSim_between.setpoint
  water := almostSim_between.water
  room h := by cases h
  sound i air _ := by
    fin_cases i
    refine ⟨fun p hp => ?_, fun c hc _ => ?_, fun c hc hx => ?_, fun c hc x _ w perf _ _ h => ?_⟩
    · cases hp
    · exact ⟨⟨by decide +kernel, by decide +kernel⟩, by decide +kernel⟩
    · obtain rfl : soleCond = c := by injection hc
      cases hx
    · rw [soleSim_performance hc h]; norm_num

theorem soleSim_supplied : soleSim.SuppliedBetween soleSim.inletT quietMinute 10 ((50 : ℚ) : WithTop ℚ) 0 40 where
  draw := by decide +kernel
  second := by decide +kernel
  inlet := lies_coe.mpr (by decide +kernel)
  inlet2 := .inl rfl
  exchanger h := by cases h
  extra := rfl
  around := lies_coe.mpr (by decide +kernel)
  source _ := lies_coe.mpr (by decide +kernel)
  cooled h := by cases h

theorem soleSim_onePump : OnePump soleSim 4 10 50 0 40 where
  pump := ⟨_, rfl⟩
  noBackup := rfl
  noFollower := rfl
  output c hc x _ air water perf _ _ _ _ h := by rw [soleSim_performance hc h]; norm_num

/-- Its states minute by minute. -/
def soleStates : ℕ → Sim 1 1
  | 0 => soleSim
  | t + 1 => match Sim.runOneStep sampleLibm 5 (soleStates t) quietMinute with
    | .ok s => s
    | .error _ => soleSim

/-- The hypotheses are met with `N = 7`, and recovery takes some time: the heat pump is still on after three minutes. -/
example : soleStates 0 = soleSim ∧
    (∀ t < 7, Sim.runOneStep sampleLibm 5 (soleStates t) quietMinute = .ok (soleStates (t + 1))) ∧
    heatTo soleSim 50 < (7 : ℕ) * (60 * 4 * soleSim.cfg.minutesPerStep - mostLost soleSim 50 20) ∧
    ((soleStates 3).st 0).isOn = true ∧ ((soleStates 3).st 0).runtime_min = 1 ∧
    ((soleStates 7).st 0).isOn = false := by
  refine ⟨rfl, fun t ht => ?_, by decide +kernel, by decide +kernel, by decide +kernel, by decide +kernel⟩
  have ok : ∀ t < 7, (Sim.runOneStep sampleLibm 5 (soleStates t) quietMinute).isOk = true := by decide +kernel
  have := ok t ht
  rw [soleStates]
  cases h : Sim.runOneStep sampleLibm 5 (soleStates t) quietMinute with
  | ok s => rfl
  | error e => rw [h] at this; cases this

end HPWH
