import Verif.Lemmas.Charge
import Verif.Props.Passes
import Verif.Props.Reasons

/-! # C105: heating under control by the state of charge stops at the limit, within one node just useful -/

namespace HPWH

open Spec

variable {n k : ℕ}

theorem extFinish_plant (period : ℚ) (a : ExtState n) : (extFinish period a).1 = period - a.remaining ∧
    (extFinish period a).2.1.tank = a.plant.tank ∧ (extFinish period a).2.1.soc = a.plant.soc ∧
    (extFinish period a).2.1.setpoint = a.plant.setpoint ∧ (extFinish period a).2.1.inletT = a.plant.inletT ∧
    (extFinish period a).2.1.socControl = a.plant.socControl ∧
    (extFinish period a).2.1.haveInletT = a.plant.haveInletT := by
  unfold extFinish
  dsimp only
  split_ifs <;> exact ⟨rfl, rfl, rfl, rfl, rfl, rfl, rfl⟩

/-- The decisions of a heat source do not depend on what is reported of the condenser. -/
theorem shutsOff_congr (s : SourceCfg n k) (p q : Plant n) (h1 : p.tank = q.tank) (h2 : p.soc = q.soc)
    (h3 : p.setpoint = q.setpoint) (h4 : p.haveInletT = q.haveInletT) : s.shutsOff p = s.shutsOff q := by
  have hv : ∀ l : Logic, l.holds p = l.holds q := fun l => by
    unfold Logic.holds Logic.tankValue Logic.comparisonValue
    rw [h1, h2, h3, h4]
  have ha : ∀ ls, anyHolds p ls = anyHolds q ls := by
    intro ls
    induction ls with
    | nil => rfl
    | cons l ls ih => rw [anyHolds, anyHolds, ih, hv]
  unfold SourceCfg.shutsOff
  rw [ha, h1, h3]

/-- Charge by which heating under a limit of charge may exceed it, in a tank of `nodes` nodes with water at `coldest` or
above: a tolerance of 0.0001, and what a node counts that has just become useful, by at most 0.0001 of the difference
between setpoint and coldest water. -/
def Spec.chargeMargin (nodes : ℕ) (mains useful full coldest : ℚ) : ℚ :=
  1 / 10000 + (useful - mains + 1 / 10000 * (full - coldest)) / (nodes * (full - mains))

/-- **C105.** Single-pass external heating of a stratified tank that is nowhere hotter than the setpoint, from any node
to the top, with positive output (at water temperatures between the coldest node and the setpoint), for a heat
source that shuts off above upper limits, one of them the limit that `switchToSoCControls` makes for `target` and
`hyst`, that counts charge as the heater does, and that is not shut off. If it returns: the state of charge is the one
of the heated tank; if the limit is at least one node's charge, it is exceeded by at most what one more node counts that
has just become useful, up to the tolerance of the library; and if heating ended early, then the source shuts off or the
water at the outlet is at setpoint. -/
theorem C105_charge_limit (fuel : ℕ) (s : SourceCfg n k) (c : CondCfg) (p p' : Plant n) (st st' : SourceState)
    (externalT minutes target hyst minUseful constMains lo : ℚ) (useConst : Bool) (hmin : 0 < minutes)
    (ht : p.tank.Consistent) (hstrat : Stratified p.tank.nodeTs) (hT : ∀ j, lo ≤ p.tank.nodeTs j ∧ p.tank.nodeTs j ≤ p.setpoint)
    (htop : s.externalInlet = Fin.last n) (hsp : c.isMultipass = false) (hmax : p.setpoint ≤ c.maxSetpoint)
    (hperf : ∀ water perf, p.MayDraw c water →
      c.getPerformance s.airflowFreedom p.setpoint externalT water = .ok perf → 0 < perf.outputPower_W)
    (hup : ∀ l ∈ s.shutOff, l.ShutsOffAbove p)
    (hlimit : Sim.shutOffSoC target hyst minUseful useConst constMains ∈ s.shutOff)
    (hone : 1 / ((n : ℚ) + 1) ≤ target + hyst) (hctl : p.socControl = some ⟨minUseful, useConst, constMains⟩)
    (hmains : p.haveInletT = true ∨ useConst = true) (hmu : p.mainsT useConst constMains < minUseful)
    (hset : minUseful ≤ p.setpoint)
    (hsoc : p.soc = stateOfCharge p.tank.nodeTs (p.mainsT useConst constMains) minUseful p.setpoint)
    (hoff : s.shutsOff p = .ok false)
    (h : externalAddHeat fuel s c p st externalT minutes = .ok (p', st')) :
    p'.soc = stateOfCharge p'.tank.nodeTs (p.mainsT useConst constMains) minUseful p.setpoint ∧
    p'.soc ≤ target + hyst + chargeMargin (n + 1) (p.mainsT useConst constMains) minUseful p.setpoint lo ∧
    (st'.runtime_min < minutes → s.shutsOff p' = .ok true ∨ p.setpoint ≤ p'.tank.nodeTs s.externalOutlet) := by
  have hfresh : Fresh p := by
    refine fresh_of_soc hctl ?_
    rw [C38_state_of_charge _ _ _ _ hmu hset, hsoc]
  have husable : p.SoCUsable := fun c hc => by
    have : c = ⟨minUseful, useConst, constMains⟩ := (Option.some.inj (hctl.symm.trans hc)).symm
    subst this
    exact ⟨hmu, hset⟩
  unfold externalAddHeat addHeatExternal at h
  rw [bind_ok_iff] at h
  obtain ⟨r, hr, h⟩ := h
  simp only [hsp, Bool.false_eq_true, if_false] at hr
  rw [bind_ok_iff] at hr
  obtain ⟨a, ha, hr⟩ := hr
  have hr := (Except.ok.inj hr).symm
  obtain ⟨e1, e2⟩ := Prod.mk.inj (Except.ok.inj h)
  obtain ⟨x1, x2, x3, x4, x5, x6, x7⟩ := extFinish_plant minutes a
  rw [← hr] at x1 x2 x3 x4 x5 x6 x7
  rw [e1] at x2 x3 x4 x5 x6 x7
  obtain ⟨hch, hsame, hend⟩ := spLoop_charge s c externalT minutes p ht htop hsp hmax hperf husable hup
    (Sim.shutOffSoC target hyst minUseful useConst constMains) hlimit hmains
    ⟨rfl, minUseful, hyst, useConst, constMains, rfl, hctl⟩ lo (fun j => (hT j).1) hone
    (target + hyst + chargeMargin (n + 1) (p.mainsT useConst constMains) minUseful p.setpoint lo)
    (fun a b c d e => by
      obtain ⟨rfl, rfl, rfl, rfl⟩ : minUseful = a ∧ hyst = b ∧ useConst = c ∧ constMains = d := by
        injection e with e1 e2 e3 e4
        exact ⟨e1, e2, e3, e4⟩
      unfold chargeMargin
      rw [← add_assoc]
      push_cast
      rfl)
    (by
      have h1 : 0 ≤ p.setpoint - lo := by linarith [(hT 0).1, (hT 0).2]
      have h2 : 0 < p.setpoint - p.mainsT useConst constMains := by linarith
      have h3 : 0 ≤ chargeMargin (n + 1) (p.mainsT useConst constMains) minUseful p.setpoint lo := by
        have h4 : 0 < minUseful - p.mainsT useConst constMains := by linarith
        unfold chargeMargin
        positivity
      exact le_add_of_nonneg_right h3)
    fuel _ a (.init s c externalT minutes p hmin.le) hfresh
    ((stratified_iff_monotone _).mp hstrat) (fun j => (hT j).2) hoff ha
  refine ⟨?_, ?_, ?_⟩
  · have hm : a.plant.mainsT useConst constMains = p.mainsT useConst constMains := by
      unfold Plant.mainsT; rw [hsame.2.2.1]
    rw [x3, x2, hch.fresh.charge (hsame.2.2.2.2.trans hctl) (by rw [hm]; exact hmu)
      (by rw [hsame.2.1]; exact hset), hm, hsame.2.1]
  · rw [x3]; exact hch.soc
  · intro hrun
    have : st'.runtime_min = minutes - a.remaining := by rw [← e2]; exact x1
    rw [this] at hrun
    rw [shutsOff_congr s p' a.plant x2 x3 x4 x7, x2]
    exact hend (by linarith)

/-! ## A step of a water heater with one external heat pump -/

theorem shouldHeat_open {s : SourceCfg n k} {p : Plant n} (h : s.shouldHeat p = .ok true) :
    s.shutsOff p = .ok false := by
  unfold SourceCfg.shouldHeat at h
  rw [bind_ok_iff] at h
  obtain ⟨b, -, h⟩ := h
  cases b with
  | false => simp [pure, Except.pure] at h
  | true =>
    simp only [if_true] at h
    rw [bind_ok_iff] at h
    obtain ⟨off, ho, h⟩ := h
    cases off with
    | false => exact ho
    | true => simp [pure, Except.pure] at h

/-- With one heat source, engaging it turns it on and nothing else. -/
theorem engage_one {dr : DR} {s s' : Sim n 1} {i : Fin 1} (h : s.engage dr i = .ok s') :
    (s'.st 0).isOn = true ∧ s'.isHeating = true := by
  obtain rfl : i = 0 := Subsingleton.elim _ _
  unfold Sim.engage at h
  rw [Sim.engageAux] at h
  dsimp only at h
  have hon : ((({ s.setSt 0 { s.st 0 with isOn := true } with isHeating := true } : Sim n 1)).st 0).isOn = true := by
    simp [Sim.setSt]
  split at h
  · rw [← Except.ok.inj h]; exact ⟨hon, rfl⟩
  · rename_i j hj
    obtain rfl : j = 0 := Subsingleton.elim _ _
    rw [bind_ok_iff] at h
    obtain ⟨off, -, h⟩ := h
    rw [hon] at h
    simp only [Bool.not_true, Bool.and_false, Bool.false_and, Bool.false_eq_true, if_false] at h
    rw [← Except.ok.inj h]; exact ⟨hon, rfl⟩

/-- What the choice of heat sources leaves on, if there is only one: a source that is not shut off. -/
theorem choose_open {dr : DR} {s s' : Sim n 1} (hb : (s.cfg.src 0).backup = none)
    (hinv : (s.st 0).isOn = true → s.isHeating = true) (h : Sim.chooseLoop dr (List.finRange 1) s = .ok s')
    (hon : (s'.st 0).isOn = true) : (s.cfg.src 0).shutsOff s.toPlant = .ok false := by
  have e : List.finRange 1 = [0] := by decide
  rw [e, Sim.chooseLoop, bind_ok_iff] at h
  obtain ⟨r, hr, h⟩ := h
  have hs' : r.1 = s' := by
    split_ifs at h
    · exact Except.ok.inj h
    · rw [Sim.chooseLoop] at h; exact Except.ok.inj h
  subst hs'
  unfold Sim.chooseBody at hr
  by_cases hh : s.isHeating = true
  · rw [if_pos hh, bind_ok_iff] at hr
    obtain ⟨s1, h1, hr⟩ := hr
    have c1 := CtrlEq.handOver h1
    have o1 : (s1.st 0).isOn = true → (s.cfg.src 0).shutsOff s.toPlant = .ok false := by
      intro ho
      unfold Sim.handOver at h1
      rw [bind_ok_iff] at h1
      obtain ⟨off, hoff, h1⟩ := h1
      rw [hb] at h1
      cases off with
      | true =>
        simp only [if_true] at h1
        rw [← Except.ok.inj h1] at ho
        simp [Sim.disengage, Sim.setSt] at ho
      | false =>
        simp only [Bool.false_eq_true, if_false] at h1
        rw [← Except.ok.inj h1] at ho
        unfold Sim.engagedShutsOff at hoff
        rw [if_pos ho] at hoff
        exact hoff
    by_cases hv : (s.cfg.src 0).isVIP = true
    · rw [if_pos hv, bind_ok_iff] at hr
      obtain ⟨want, hw, hr⟩ := hr
      cases want with
      | true => rw [c1.plant] at hw; exact shouldHeat_open hw
      | false =>
        simp only [Bool.false_eq_true, if_false] at hr
        rw [← Except.ok.inj hr] at hon
        exact o1 hon
    · rw [if_neg hv] at hr
      rw [← Except.ok.inj hr] at hon
      exact o1 hon
  · rw [if_neg hh, bind_ok_iff] at hr
    obtain ⟨want, hw, hr⟩ := hr
    cases want with
    | true => exact shouldHeat_open hw
    | false =>
      simp only [Bool.false_eq_true, if_false] at hr
      rw [← Except.ok.inj hr] at hon
      exact absurd (hinv hon) hh

/-- As `control_once`: the source runs only if it is not shut off. -/
theorem control_once_open {m : Libm} {fuel : ℕ} {dr : DR} {amb : ℚ} {s s' : Sim n 1}
    (hb : (s.cfg.src 0).backup = none) (hinv : (s.st 0).isOn = true → s.isHeating = true)
    (h : Sim.control m fuel dr amb s = .ok s') :
    CtrlEq s s' ∨ ((s.cfg.src 0).shutsOff s.toPlant = .ok false ∧
      ∃ a b, CtrlEq s a ∧ a.addHeatParent m fuel 0 amb s.cfg.minutesPerStep = .ok b ∧ CtrlEq b s') := by
  rcases control_once hb h with hc | hc
  · exact .inl hc
  by_cases hoff : (s.cfg.src 0).shutsOff s.toPlant = .ok false
  · exact .inr ⟨hoff, hc⟩
  left
  unfold Sim.control at h
  rw [bind_ok_iff] at h
  obtain ⟨s1, h1, h⟩ := h
  have hlast : CtrlEq s1 s' := by
    rw [← Except.ok.inj h]
    split_ifs
    · exact .heating s1 false
    · exact .refl s1
  refine CtrlEq.trans ?_ hlast
  unfold Sim.normalControl at h1
  by_cases hd : (dr.loc && dr.lor) = true
  · rw [if_pos hd] at h1
    rw [← Except.ok.inj h1]
    exact .turnAllOff s
  rw [if_neg hd, bind_ok_iff] at h1
  obtain ⟨a, ha, h1⟩ := h1
  rw [bind_ok_iff] at h1
  obtain ⟨b, hb1, h1⟩ := h1
  have ca := CtrlEq.topOff ha
  have cb := ca.trans (CtrlEq.chooseLoop hb1)
  have hinva : (a.st 0).isOn = true → a.isHeating = true := by
    have key : ∀ {x y : Sim n 1} {o : Option (Fin 1)}, ((x.st 0).isOn = true → x.isHeating = true) →
        Sim.engageIf dr x o = .ok y → ((y.st 0).isOn = true → y.isHeating = true) := by
      intro x y o hx hy
      cases o with
      | none => rw [Sim.engageIf] at hy; rw [← Except.ok.inj hy]; exact hx
      | some j => rw [Sim.engageIf] at hy; exact fun _ => (engage_one hy).2
    unfold Sim.topOff at ha
    split_ifs at ha
    · rw [bind_ok_iff] at ha
      obtain ⟨x, hx, ha⟩ := ha
      exact key (key hinv hx) ha
    · rw [← Except.ok.inj ha]; exact hinv
  have hboff : (b.st 0).isOn = false := by
    by_contra hc
    have := choose_open (by rw [ca.cfg]; exact hb) hinva hb1 (by simpa using hc)
    rw [ca.cfg, ca.plant] at this
    exact hoff this
  have e : List.finRange 1 = [0] := by decide
  rw [e, Sim.heatSrcLoop, bind_ok_iff] at h1
  obtain ⟨r, hr, h1⟩ := h1
  rw [Sim.heatSrcLoop] at h1
  have h1 := Except.ok.inj h1
  subst h1
  unfold Sim.heatBody at hr
  rw [bind_ok_iff] at hr
  obtain ⟨b1, hl, hr⟩ := hr
  split_ifs at hr with hon
  · exfalso
    have := applyLocks_off (fun i hi => by
      obtain rfl : i = 0 := Subsingleton.elim _ _
      rw [hboff] at hi; cases hi) hl
    rw [this] at hon
    cases hon
  · rw [← Except.ok.inj hr]; exact cb.trans (CtrlEq.applyLocks hl)

/-- **C105**, for a step of a water heater whose only heat source is such a heat pump, without backup and not limited by
cold air, with water nowhere hotter than the setpoint after the draw, and without extra heat. After the step the
reported state of charge is the one of the tank; it is no higher than after the draw, or at most the margin above
the limit; and the heat in the tank is what the draw and the losses left plus the output energy. -/
theorem C105_step (m : Libm) (fuel : ℕ) (s s' : Sim n 1) (u : Sim.StepInput) (c : CondCfg)
    (target hyst minUseful constMains lo : ℚ) (useConst : Bool)
    (hk : (s.cfg.src 0).kind = .condenser c) (hext : c.configuration = .external) (hsp : c.isMultipass = false)
    (hback : (s.cfg.src 0).backup = none) (htop : (s.cfg.src 0).externalInlet = Fin.last n)
    (hw : s.tank.WellFormed) (hmix : s.tank.doInversionMixing = true) (hstep : 0 < s.cfg.minutesPerStep)
    (hd : 0 ≤ u.draw_L) (hextra : u.extraHeat_W = [])
    (hon : (s.st 0).isOn = true → s.isHeating = true)
    (hair : ¬ (s.sourceAirT u ≤ c.maxOutAirT ∧ c.maxOutT ≤ s.setpoint)) (hmax : s.setpoint ≤ c.maxSetpoint)
    (hperf : ∀ water perf, c.getPerformance (s.cfg.src 0).airflowFreedom s.setpoint (s.sourceAirT u) water = .ok perf →
      0 < perf.outputPower_W)
    (hdrawn : ∀ t, s.DrawnTank u t → ∀ j, lo ≤ t.nodeTs j ∧ t.nodeTs j ≤ s.setpoint)
    (hup : ∀ l ∈ (s.cfg.src 0).shutOff, l.ShutsOffAbove s.toPlant)
    (hlimit : Sim.shutOffSoC target hyst minUseful useConst constMains ∈ (s.cfg.src 0).shutOff)
    (hone : 1 / ((n : ℚ) + 1) ≤ target + hyst) (hctl : s.socControl = some ⟨minUseful, useConst, constMains⟩)
    (hmains : s.haveInletT = true ∨ useConst = true) (hmu : s.mainsT useConst constMains < minUseful)
    (hset : minUseful ≤ s.setpoint) (h : Sim.runOneStep m fuel s u = .ok s') :
    s'.soc = stateOfCharge s'.tank.nodeTs (s.mainsT useConst constMains) minUseful s.setpoint ∧
    ∃ p, AfterDraw s u p ∧ s'.soc ≤ max p.soc (target + hyst +
        chargeMargin (n + 1) (s.mainsT useConst constMains) minUseful s.setpoint lo) ∧
      0 ≤ (s'.st 0).runtime_min ∧ (s'.st 0).runtime_min ≤ s.cfg.minutesPerStep ∧
      tankHeat s.tank.volume_L s'.tank.nodeTs =
        tankHeat s.tank.volume_L p.tank.nodeTs + 3600 * (s'.st 0).energyOutput_kWh := by
  obtain ⟨-, s0, s1, s2, h0, h1, h2, rfl⟩ := runOneStep_ok h
  obtain ⟨g1, -, -, -, -, g6, -⟩ := finish_facts s2 u.tankAmbient u.dr
  have e2 : s2 = s1 := (extraStep_frame h2).2.2.2.2.2.2.2 hextra
  subst e2
  obtain ⟨t, hdr, hupd⟩ := h0.plant
  obtain ⟨hcfg0, hmono0⟩ := updateNodes_facts { s.tank with outletT := 0, standbyLosses_kJ := 0 } _
      (hw.of_cfg rfl) _ _ _ _ _ _ _ hd h0.drawn
  have hcons : s0.tank.Consistent := (hw.of_cfg hcfg0).toConsistent
  have hvol : s0.tank.volume_L = s.tank.volume_L := by
    rw [hcfg0]
  have hfresh : Fresh s0.toPlant := updateSoC_fresh hupd
  have hm0 : s0.mainsT useConst constMains = s.mainsT useConst constMains := by
    unfold Plant.mainsT; rw [h0.inletT]
  have hsoc0 : s0.soc = stateOfCharge s0.tank.nodeTs (s0.mainsT useConst constMains) minUseful s0.setpoint :=
    hfresh.charge (h0.socControl.trans hctl) (by rw [hm0]; exact hmu) (by rw [h0.setpoint]; exact hset)
  rw [(g6 0).1, (g6 0).2.1]
  simp only [g1]
  have hst := h0.st 0
  rcases control_once_open (by rw [h0.cfg]; exact hback)
      (by rw [hst, h0.isHeating]; exact hon) h1 with hc | ⟨hoff, a, b, ca, hab, cb⟩
  · rw [hc.runtime, hc.output, hst]
    simp only [hc.plant]
    refine ⟨by rw [hsoc0, hm0, h0.setpoint], s0.toPlant, h0.plant, le_max_left _ _, le_rfl, hstep.le, ?_⟩
    simp [SourceState.cleared]
  · rw [cb.runtime, cb.output]
    simp only [cb.plant]
    have hacfg : a.cfg = s.cfg := ca.cfg.trans h0.cfg
    have hapl : a.toPlant = s0.toPlant := ca.plant
    unfold Sim.addHeatParent at hab
    rw [hacfg, hk] at hab
    dsimp only at hab
    rw [if_neg (fun hc => hair ⟨hc.1, by
      have : a.setpoint = s.setpoint := by rw [hapl]; exact h0.setpoint
      rw [← this]; exact hc.2⟩)] at hab
    obtain ⟨k1, -⟩ := addHeat_spec hab
    rw [hacfg, hapl] at k1
    unfold Sim.addHeatKind at k1
    rw [hk] at k1
    dsimp only at k1
    rw [condenserAddHeat_external m.exp fuel _ c hext, h0.cfg] at k1
    have hperf' : ∀ water perf, s0.MayDraw c water → c.getPerformance (s.cfg.src 0).airflowFreedom s0.setpoint
        (s.sourceAirT u) water = .ok perf → 0 < perf.outputPower_W := fun w perf _ hp => by
      rw [h0.setpoint] at hp; exact hperf w perf hp
    have hup' : ∀ l ∈ (s.cfg.src 0).shutOff, l.ShutsOffAbove s0.toPlant := fun l hl => by
      obtain ⟨u1, u2⟩ := hup l hl
      refine ⟨u1, ?_⟩
      have e : ∀ x y, s0.mainsT x y = s.mainsT x y := fun x y => by unfold Plant.mainsT; rw [h0.inletT]
      simpa only [e] using u2
    rw [h0.cfg] at hoff
    obtain ⟨q1, q2, -⟩ := C105_charge_limit fuel (s.cfg.src 0) c s0.toPlant b.toPlant (a.st 0) (b.st 0) _ _
      target hyst minUseful constMains lo useConst hstep hcons ((stratified_iff_monotone _).mpr (hmono0 hmix))
      (fun j => by rw [h0.setpoint]; exact hdrawn _ h0.drawn j) htop hsp (by rw [h0.setpoint]; exact hmax) hperf' hup'
      hlimit hone (h0.socControl.trans hctl) (by rw [h0.haveInletT]; exact hmains) (by rw [hm0]; exact hmu)
      (by rw [h0.setpoint]; exact hset) hsoc0 hoff k1
    obtain ⟨r1, r2, r3, -⟩ := C16_single_pass_energy fuel (s.cfg.src 0) c s0.toPlant b.toPlant (a.st 0) (b.st 0) _ _
      hstep.le hcons (by rw [htop]; exact Fin.le_last _) hsp hperf'
      (fun q f hq ho hf => C16_upper_limits_qualify _ s0.toPlant hup' (.inl hoff) q f hq ho hf) k1
    rw [hm0, h0.setpoint] at q2
    refine ⟨by rw [q1, hm0, h0.setpoint], s0.toPlant, h0.plant, q2.trans (le_max_right _ _), r1, r2, ?_⟩
    have hz : (a.st 0).energyOutput_kWh = 0 := by rw [ca.output, hst]; rfl
    rw [hz, sub_zero, hvol] at r3
    exact r3

/-- A heater with one external heat pump under control by the state of charge: target 60 %, hysteresis 5 %, useful from
43 °C, mains taken to be at 18 °C. -/
def chargeSim : Sim 3 1 :=
  { externalSim sampleExtCond with
    socControl := some ⟨43, true, 18⟩
    cfg := { (externalSim sampleExtCond).cfg with
      src := fun i => { (externalSim sampleExtCond).cfg.src i with
        turnOn := [Sim.turnOnSoC (3/5) (1/20) 43 true 18]
        shutOff := [Sim.shutOffSoC (3/5) (1/20) 43 true 18] } } }

/-- It is what `switchToSoCControls` makes. -/
example : (externalSim sampleExtCond).switchToSoC .C (3/5) (1/20) 43 true 18 = .ok chargeSim := by
  rfl

/-- A step of an hour with a draw meets the conditions of `C105_step`; the heat pump runs, stops early, and overshoots
the limit of 65 %. -/
example : chargeSim.tank.WellFormed ∧ chargeSim.tank.doInversionMixing = true ∧
    (∀ l ∈ (chargeSim.cfg.src 0).shutOff, l.ShutsOffAbove chargeSim.toPlant) ∧
    chargeSim.mainsT true 18 < 43 ∧ 43 ≤ chargeSim.setpoint ∧ chargeSim.setpoint ≤ sampleExtCond.maxSetpoint ∧
    ∃ s', Sim.runOneStep sampleLibm 40 { chargeSim with cfg := { chargeSim.cfg with minutesPerStep := 60 } }
        { sampleInput with inletVol2_L := 0, extraHeat_W := [] } = .ok s' ∧
      0 < (s'.st 0).runtime_min ∧ (s'.st 0).runtime_min < 60 ∧ 65 / 100 < s'.soc := by
  refine ⟨warmTank_wellFormed, rfl, fun l hl => ?_, by decide +kernel, by decide +kernel, by decide +kernel,
    by decide +kernel⟩
  have : l = Sim.shutOffSoC (3/5) (1/20) 43 true 18 := by simpa [chargeSim] using hl
  subst this
  exact ⟨rfl, by change chargeSim.mainsT true 18 < 43; decide +kernel⟩

/-- The conditions on the drawn tank and on the air are met as well. -/
example (t : Tank 3) (h : chargeSim.DrawnTank { sampleInput with inletVol2_L := 0, extraHeat_W := [] } t) (j : Fin 4) :
    5 ≤ t.nodeTs j ∧ t.nodeTs j ≤ chargeSim.setpoint := by
  have h0 : ∃ t, (({ chargeSim.tank with outletT := 0, standbyLosses_kJ := 0 } : Tank 3).updateNodes
    (chargeSim.cfg.minutesPerStep / 60) (60 * chargeSim.cfg.minutesPerStep) sampleInput.draw_L chargeSim.inletT
      (chargeSim.tankAirT { sampleInput with inletVol2_L := 0, extraHeat_W := [] })
    0 sampleInput.inletT2) = .ok t ∧ ∀ j, 5 ≤ t.nodeTs j ∧ t.nodeTs j ≤ chargeSim.setpoint := by decide +kernel
  obtain ⟨t', h1, h2⟩ := h0
  unfold Sim.DrawnTank at h
  have e : t' = t := Except.ok.inj (h1.symm.trans h)
  rw [← e]
  exact h2 j

example : ¬ (chargeSim.sourceAirT sampleInput ≤ sampleExtCond.maxOutAirT ∧ sampleExtCond.maxOutT ≤ chargeSim.setpoint) := by
  decide +kernel

end HPWH
