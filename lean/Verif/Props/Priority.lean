import Verif.Spec.Priority
import Verif.Props.Stops
import Verif.Props.Compare
import Verif.Props.Backup

/-! # C110: the element with priority comes first -/

namespace HPWH

open Spec
open _root_.HPWH.Units

variable {n k : ℕ}

/-- Heat source `v` is on and no other is. -/
def LoneOn (s : Sim n k) (v : Fin k) : Prop := ∀ l, (s.st l).isOn = true ↔ l = v

theorem LoneOn.off {s : Sim n k} {v : Fin k} (h : LoneOn s v) : ∀ l, l ≠ v → (s.st l).isOn = false := fun l hl => by
  by_contra hc
  exact hl ((h l).mp (by simpa using hc))

theorem Spec.Priority.of_cfg {s s' : Sim n k} {v : Fin k} (h : Priority s v) (e : s'.cfg = s.cfg) : Priority s' v :=
  ⟨by rw [e]; exact h.element, by rw [e]; exact h.first, by rw [e]; exact h.noCompanion⟩

/-! ## Choosing -/

theorem handOver_lone {dr : DR} {s s1 : Sim n k} {j : Fin k} (hc : ∀ j, (s.cfg.src j).companion = none) (h : OneAtMost s)
    (h1 : s.handOver dr j = .ok s1) : OneAtMost s1 := by
  unfold Sim.handOver at h1
  obtain ⟨off, ho, h1⟩ := (bind_ok_iff _ _ _).mp h1
  cases off with
  | false => cases h1; exact h
  | true =>
    have hj : (s.st j).isOn = true := by
      unfold Sim.engagedShutsOff at ho
      by_contra hc
      rw [if_neg hc] at ho
      cases ho
    rw [if_pos rfl] at h1
    cases hb : (s.cfg.src j).backup with
    | some b =>
      rw [hb] at h1
      obtain ⟨off2, -, h1⟩ := (bind_ok_iff _ _ _).mp h1
      cases off2 with
      | true => cases h1; exact h.disengage j
      | false =>
        rw [if_neg (by simp), engage_alone (s := s.disengage j) (hc b)] at h1
        cases h1
        refine OneAtMost.switched fun l hl => ?_
        obtain ⟨a1, a2⟩ := disengage_on.mp hl
        exact absurd (h.alone l j a2 hj) a1
    | none =>
      rw [hb] at h1
      cases h1; exact h.disengage j

theorem chooseLoop_keeps_only {dr : DR} {v : Fin k} : ∀ (is : List (Fin k)) (s s' : Sim n k), Priority s v → v ∉ is →
    s.isHeating = true → LoneOn s v → s.chooseLoop dr is = .ok s' → s' = s
  | [], s, s', _, _, _, _, h1 => (Except.ok.inj h1).symm
  | j :: is, s, s', hp, hv, hh, ho, h1 => by
    rw [Sim.chooseLoop] at h1
    obtain ⟨r, h2, h1⟩ := (bind_ok_iff _ _ _).mp h1
    have hj : j ≠ v := fun e => hv (by rw [e]; exact List.mem_cons_self)
    have e : r = (s, false) := by
      unfold Sim.chooseBody at h2
      rw [if_pos hh] at h2
      obtain ⟨s1, h3, h2⟩ := (bind_ok_iff _ _ _).mp h2
      have hvip : (s.cfg.src j).isVIP = false := by
        by_contra hc
        exact hj ((hp.first j).mp (by simpa using hc))
      rw [hvip] at h2
      have : s1 = s := by
        unfold Sim.handOver Sim.engagedShutsOff at h3
        rw [ho.off j hj] at h3
        exact (Except.ok.inj h3).symm
      subst this
      exact (Except.ok.inj h2).symm
    subst e
    exact chooseLoop_keeps_only is s s' hp (fun hm => hv (List.mem_cons_of_mem _ hm)) hh ho h1

theorem turnAllOff_switched_only (s : Sim n k) (v : Fin k) : LoneOn (s.turnAllOff.switched v) v := fun l => by
  rw [switched_on]
  constructor
  · rintro (h | h)
    · exact h
    · cases h
  · exact .inl

theorem chooseLoop_priority {dr : DR} {v : Fin k} (hlor : dr.lor = false) : ∀ (is : List (Fin k)) (s s' : Sim n k),
    OneAtMost s → Priority s v → is.Nodup → v ∈ is → (∀ on, (s.cfg.src v).shouldHeat s.toPlant = .ok on → on = true) →
    s.chooseLoop dr is = .ok s' → LoneOn s' v
  | [], _, _, _, _, _, hm, _, _ => by cases hm
  | j :: is, s, s', ha, hp, hd, hm, hc, h1 => by
    rw [Sim.chooseLoop] at h1
    obtain ⟨r, h2, h1⟩ := (bind_ok_iff _ _ _).mp h1
    have hd' := List.nodup_cons.mp hd
    have c := CtrlEq.chooseBody h2
    by_cases e : j = v
    · subst e
      unfold Sim.chooseBody at h2
      by_cases hh : s.isHeating = true
      · rw [if_pos hh] at h2
        obtain ⟨s1, h3, h2⟩ := (bind_ok_iff _ _ _).mp h2
        have c1 := CtrlEq.handOver h3
        rw [(hp.first j).mpr rfl, if_pos rfl] at h2
        obtain ⟨want, h4, h2⟩ := (bind_ok_iff _ _ _).mp h2
        rw [c1.plant] at h4
        have := hc want h4
        subst this
        obtain ⟨w, hw⟩ := hp.element
        have hdr : shouldDRLockOut (s.cfg.src j).kind dr = false := by rw [hw]; exact hlor
        rw [if_pos rfl, hdr, if_neg (by decide)] at h2
        have hcomp : (s1.turnAllOff.cfg.src j).companion = none := by
          have : s1.turnAllOff.cfg = s.cfg := c1.cfg
          rw [this]
          exact hp.noCompanion j
        rw [engage_alone hcomp] at h2
        cases h2
        rw [if_pos rfl] at h1
        cases h1
        exact turnAllOff_switched_only s1 j
      · rw [if_neg hh] at h2
        obtain ⟨want, h4, h2⟩ := (bind_ok_iff _ _ _).mp h2
        have := hc want h4
        subst this
        rw [if_pos rfl, engage_alone (hp.noCompanion j)] at h2
        cases h2
        have only : LoneOn (s.switched j) j := fun l => by
          rw [switched_on]
          constructor
          · rintro (h | h)
            · exact h
            · exact absurd (ha.known l h) hh
          · exact .inl
        rw [if_neg (by simp)] at h1
        rw [chooseLoop_keeps_only is (s.switched j) s' (hp.of_cfg rfl) hd'.1 rfl only h1]
        exact only
    · have hm' : v ∈ is := by
        rcases List.mem_cons.mp hm with hm | hm
        · exact absurd hm.symm e
        · exact hm
      have hvip : (s.cfg.src j).isVIP = false := by
        by_contra hx
        exact e ((hp.first j).mp (by simpa using hx))
      have hr : r.2 = false ∧ OneAtMost r.1 := by
        unfold Sim.chooseBody at h2
        by_cases hh : s.isHeating = true
        · rw [if_pos hh] at h2
          obtain ⟨s1, h3, h2⟩ := (bind_ok_iff _ _ _).mp h2
          rw [hvip] at h2
          cases h2
          exact ⟨rfl, handOver_lone hp.noCompanion ha h3⟩
        · rw [if_neg hh] at h2
          obtain ⟨want, h4, h2⟩ := (bind_ok_iff _ _ _).mp h2
          cases want with
          | false => cases h2; exact ⟨rfl, ha⟩
          | true =>
            rw [if_pos rfl, engage_alone (hp.noCompanion j)] at h2
            cases h2
            exact ⟨rfl, OneAtMost.switched fun l hl => absurd (ha.known l hl) hh⟩
      rw [hr.1, if_neg (by decide)] at h1
      refine chooseLoop_priority hlor is r.1 s' hr.2 (hp.of_cfg c.cfg) hd'.2 hm' ?_ h1
      rw [c.cfg, c.plant]; exact hc

/-! ## Heating -/

/-- What has come of the turn of element `v`: it ran for the whole time and nothing else did, or the water above it is hot. -/
def First (c : SimCfg n k) (s s' : Sim n k) (v : Fin k) (minutes : ℚ) : Prop :=
  (LoneOn s' v ∧ minutes ≤ (s'.st v).runtime_min ∧ ∀ l, l ≠ v → SameUse s s' l) ∨ HotAbove (c.src v) s'.toPlant

theorem heatSrcLoop_first {m : Libm} (hexp : ∀ x, 0 ≤ m.exp x) {fuel : ℕ} {dr : DR} {amb : ℚ} {s0 : Sim n k} {lo : ℚ}
    {hi : WithTop ℚ} (hS : ∀ j, (s0.cfg.src j).Sound s0.setpoint amb lo hi) (hn : n + 1 ≤ 10000)
    (ht : s0.tank.Consistent) (hmix : s0.tank.doInversionMixing = true) (hset : (s0.setpoint : WithTop ℚ) ≤ hi)
    (habs : Sim.noSetpoint < s0.setpoint) {v : Fin k}
    (hp : Priority s0 v) (hwo : s0.WarmsOnly hi) (hev : EvenlySpread (s0.cfg.src v).heatDist (n + 1)) (hlor : dr.lor = false) :
    ∀ (is : List (Fin k)), is.Nodup → v ∈ is →
    ∀ {s : Sim n k} {minutes : ℚ}, StepInv s0 s lo hi → 0 ≤ minutes → minutes ≤ s0.cfg.minutesPerStep → LoneOn s v → ∀ {s' : Sim n k},
      s.heatSrcLoop m fuel dr amb is minutes = .ok s' → First s0.cfg s s' v minutes
  | [], _, hm, _, _, _, _, _, _, _, _ => by cases hm
  | j :: is, hnd, hm, s, minutes, inv, hmin, hmax, ho, s', h => by
    rw [Sim.heatSrcLoop] at h
    obtain ⟨r, h1, h⟩ := (bind_ok_iff _ _ _).mp h
    have hd' := List.nodup_cons.mp hnd
    have H0 := StepInv.heatInduction hexp fuel dr amb s0 lo hi hS hn ht hmix hset habs
    obtain ⟨inv', hmin', hmax'⟩ := H0.heatBody (by simp [SimCfg.Covers]) inv ⟨hmin, hmax⟩ h1
    by_cases e : j = v
    · subst e
      unfold Sim.heatBody at h1
      obtain ⟨s1, h2, h1⟩ := (bind_ok_iff _ _ _).mp h1
      have c1 := CtrlEq.applyLocks h2
      have st1 := inv.ctrl c1
      obtain ⟨w, hw⟩ := hp.element
      have on1 : (s1.st j).isOn = true ∧ (s1.st j).lockedOut = false := by
        unfold Sim.applyLocks Sim.lockUnlock at h2
        rw [inv.cfg, hw] at h2
        have hdr : shouldDRLockOut (.resistance w) dr = false := hlor
        rw [hdr, if_neg (by decide)] at h2
        obtain ⟨a, ha, h2⟩ := (bind_ok_iff _ _ _).mp h2
        cases ha
        rw [if_neg (by simp [Sim.setSt])] at h2
        cases h2
        have := (ho j).mpr rfl
        simp [Sim.setSt, this]
      obtain ⟨x, y, e1, -, -⟩ := applyLocks_only h2
      have el : ∀ l, l ≠ j → s1.st l = s.st l := fun l hl => by rw [e1]; exact Function.update_of_ne hl _ _
      rw [if_pos on1.1] at h1
      obtain ⟨q, h3, h1⟩ := (bind_ok_iff _ _ _).mp h1
      unfold Sim.pickSource at h3
      rw [on1.2] at h3
      cases h3
      dsimp only at h1
      unfold Sim.runSource at h1
      obtain ⟨s2, h4, h1⟩ := (bind_ok_iff _ _ _).mp h1
      have hw1 : (s1.cfg.src j).kind = .resistance w := by rw [st1.cfg]; exact hw
      have h4a : s1.addHeat m fuel j amb minutes = .ok s2 := by
        unfold Sim.addHeatParent at h4
        rw [hw1] at h4
        exact h4
      obtain ⟨ek, -⟩ := addHeat_spec h4a
      obtain ⟨f1, f2, -⟩ := addHeatParent_only h4
      by_cases hlt : (s2.st j).runtime_min < minutes
      · right
        rw [if_pos hlt] at h1
        obtain ⟨s3, h5, h1⟩ := (bind_ok_iff _ _ _).mp h1
        cases h1
        have hcp1 : 0 < s1.tank.nodeCp := by
          have h3 : s1.tank.toTankCfg = s0.tank.toTankCfg := by rw [st1.same.1]
          have h4 : s1.tank.nodeCp = s0.tank.nodeCp := by rw [h3]
          rw [h4]
          exact ht.nodeCp_pos
        have hot : HotAbove (s0.cfg.src j) s2.toPlant := by
          unfold Sim.addHeatKind at ek
          rw [hw1] at ek
          obtain ⟨hpw, hpr⟩ := (hS j).resistance w hw
          have hcs : s1.cfg.src j = s0.cfg.src j := by rw [st1.cfg]
          rw [hcs] at ek
          exact resistanceAddHeat_full hpw hmin hcp1 st1.mono hpr hev ek hlt
        have hcfg2 : s2.cfg = s0.cfg := (addHeat_cfg h4a).trans st1.cfg
        have hpl : s3.toPlant = s2.toPlant := by
          unfold Sim.afterEarly at h5
          obtain ⟨fo, hfo, h5⟩ := (bind_ok_iff _ _ _).mp h5
          cases fo with
          | some f =>
            dsimp only at h5
            rw [engage_alone (s := s2.disengage j)
              (show (s2.cfg.src f).companion = none by rw [hcfg2]; exact hp.noCompanion f)] at h5
            cases h5
            rfl
          | none =>
            obtain ⟨mx, hmx, h5⟩ := (bind_ok_iff _ _ _).mp h5
            unfold SourceCfg.maxedOut at hmx
            rw [hcfg2, hw] at hmx
            cases hmx
            cases h5
            rfl
        have H : HeatInduction m fuel dr amb s0.cfg (fun _ => True)
            (fun x => StepInv s0 x lo hi ∧ ∀ i, s3.tank.nodeTs i ≤ x.tank.nodeTs i)
            (fun x => 0 ≤ x ∧ x ≤ s0.cfg.minutesPerStep) := by
          refine ⟨fun x hx => H0.fixed x hx.1, fun x x' hc hx => ⟨H0.ctrl x x' hc hx.1, ?_⟩, ?_, ?_⟩
          · rw [hc.plant]; exact hx.2
          · intro x x' i minutes hA hx hq hl hh
            obtain ⟨a, b⟩ := H0.heat x x' i minutes hA hx.1 hq hl hh
            exact ⟨⟨a, fun l => (hx.2 l).trans (hx.1.warmer hexp (hS i) hn ht hmix hset hwo hq.1 hh l)⟩, b⟩
          · exact fun x b minutes hx hq => H0.back x b minutes hx.1 hq
        obtain ⟨z1, z2⟩ := H.heatSrcLoop (fun i _ => by simp [SimCfg.Covers]) ⟨inv', fun _ => le_rfl⟩ ⟨hmin', hmax'⟩ h
        intro a b hab hle
        have e3 : s'.setpoint = s3.setpoint := z1.same.2.1.trans inv'.same.2.1.symm
        have := hot a b hab hle
        rw [← hpl] at this
        rw [e3]
        exact this.trans (z2 b)
      · left
        rw [if_neg hlt] at h1
        cases h1
        have only2 : LoneOn s2 j := fun l => by
          by_cases e : l = j
          · subst e; rw [f2]; exact ⟨fun _ => rfl, fun _ => on1.1⟩
          · rw [f1 l e, el l e]; exact ho l
        obtain ⟨b1, b2⟩ := heatSrcLoop_rest is s2 s' minutes only2.off hd'.1 h
        refine ⟨fun l => by rw [(b1 l).1]; exact only2 l, by rw [b2]; exact not_lt.mp hlt, fun l hl => ?_⟩
        have := b1 l
        unfold SameUse at this ⊢
        rwa [f1 l hl, el l hl] at this
    · have hm' : v ∈ is := by
        rcases List.mem_cons.mp hm with hm | hm
        · exact absurd hm.symm e
        · exact hm
      obtain ⟨a1, a2, -⟩ := heatBody_off (ho.off j e) h1
      have := heatSrcLoop_first hexp hS hn ht hmix hset habs hp hwo hev hlor is hd'.2 hm' inv' hmin' hmax'
        (fun l => by rw [(a2 l).1]; exact ho l) h
      rw [a1] at this
      rcases this with ⟨x1, x2, x3⟩ | x
      · refine .inl ⟨x1, x2, fun l hl => ?_⟩
        have c := x3 l hl
        exact ⟨c.1.trans (a2 l).1, c.2.1.trans (a2 l).2.1, c.2.2.trans (a2 l).2.2⟩
      · exact .inr x

/-! ## C110 -/

/-- **C110.** If the element with priority asks for heat after the draw of a step, then it runs for the whole step and is
the only one to be on or to run, whatever was on before, or at the end of the step all water from the lowest node it heats
upwards is at the setpoint. -/
theorem C110_priority (m : Libm) (hexp : ∀ x, 0 ≤ m.exp x) (fuel : ℕ) (s s' : Sim n k) (u : Sim.StepInput) (lo : ℚ)
    (hi : WithTop ℚ) (ha : s.Accountable u lo hi) (h1 : OneAtMost s) (v : Fin k) (hv : Priority s v)
    (hwo : s.WarmsOnly hi) (hev : EvenlySpread (s.cfg.src v).heatDist (n + 1)) (hlor : u.dr.lor = false)
    (htop : u.dr.too = false ∧ u.dr.tot = false) (hext : u.extraHeat_W = [])
    (hc : ∀ p, AfterDraw s u p → Calls s p v) (h : Sim.runOneStep m fuel s u = .ok s') :
    ((s'.st v).isOn = true ∧ (s'.st v).runtime_min = s.cfg.minutesPerStep ∧
        ∀ l, l ≠ v → (s'.st l).isOn = false ∧ Idle s' l) ∨
      HotAbove (s.cfg.src v) s'.toPlant := by
  obtain ⟨-, -, hrun, -⟩ := step_facts m hexp fuel s s' u lo hi ha h
  obtain ⟨-, s0, s1, s2, hs, hctl, h2, rfl⟩ := runOneStep_ok h
  have hw := ha.wellFormed
  have hdrawn := hs.drawn
  unfold Sim.DrawnTank at hdrawn
  have hw0 : Tank.WellFormed { s.tank with outletT := 0, standbyLosses_kJ := 0 } := hw.of_cfg rfl
  obtain ⟨f1, f2⟩ := updateNodes_facts _ _ hw0 _ _ _ _ _ _ _ ha.draw hdrawn
  have hcfg0 : s0.tank.toTankCfg = s.tank.toTankCfg := f1
  have hws : s0.tank.WellFormed := hw.of_cfg hcfg0
  have hr := ha.range _ hs.drawn
  have hstep : 0 ≤ s0.cfg.minutesPerStep := by rw [hs.cfg]; exact ha.step
  have h10 : OneAtMost s0 := ⟨fun i j hi hj => h1.alone i j (by rw [hs.st] at hi; exact hi) (by rw [hs.st] at hj; exact hj),
    fun i hi => by rw [hs.isHeating]; exact h1.known i (by rw [hs.st] at hi; exact hi)⟩
  have hv0 : Priority s0 v := hv.of_cfg hs.cfg
  have hwo0 : s0.WarmsOnly hi := by unfold Sim.WarmsOnly; rw [hs.cfg, hs.setpoint]; exact hwo
  have hclear : ∀ i, (s0.st i).runtime_min = 0 ∧ (s0.st i).energyInput_kWh = 0 ∧ (s0.st i).energyOutput_kWh = 0 :=
    fun i => by rw [hs.st]; exact ⟨rfl, rfl, rfl⟩
  obtain ⟨-, x2, -, -, -, -, -, x⟩ := extraStep_frame h2
  obtain ⟨g1, -, -, -, -, g6, -, -⟩ := finish_facts s2 u.tankAmbient u.dr
  obtain rfl := x hext
  unfold Sim.control at hctl
  obtain ⟨s3, h3, hctl⟩ := (bind_ok_iff _ _ _).mp hctl
  have hsame : s2.st = s3.st ∧ s2.toPlant = s3.toPlant := by
    rw [← Except.ok.inj hctl]
    split_ifs <;> exact ⟨rfl, rfl⟩
  unfold Sim.normalControl at h3
  rw [hlor, Bool.and_false, if_neg (by decide)] at h3
  obtain ⟨a, ha1, h3⟩ := (bind_ok_iff _ _ _).mp h3
  obtain ⟨c, hcl, h3⟩ := (bind_ok_iff _ _ _).mp h3
  have ea : a = s0 := by
    unfold Sim.topOff at ha1
    rw [htop.1, htop.2] at ha1
    exact (Except.ok.inj ha1).symm
  subst ea
  have cc := CtrlEq.chooseLoop hcl
  have only := chooseLoop_priority hlor _ _ _ h10 hv0 (List.nodup_finRange k) (List.mem_finRange v)
    (fun on hon => (C28_decisions _ _ _ hon).1.mpr (by rw [hs.cfg]; exact hc _ hs.plant)) hcl
  have hi0 : StepInv a a lo hi := StepInv.init a lo hi (f2 ha.mixing) (fun j => (hr j).1) (fun j => (hr j).2)
    (fun i => by rw [hs.st]; rfl) hstep
  have key := heatSrcLoop_first hexp (fun j => by rw [hs.cfg, hs.setpoint]; exact ha.sound j) ha.nodes
    hws.toConsistent (by rw [hcfg0]; exact ha.mixing) (by rw [hs.setpoint]; exact ha.setpoint)
    (by rw [hs.setpoint]; exact ha.absolute) hv0 hwo0 (by rw [hs.cfg]; exact hev) hlor (List.finRange k) (List.nodup_finRange k)
    (List.mem_finRange v) (hi0.ctrl cc) hstep le_rfl only h3
  rw [hsame.1] at g6
  rcases key with ⟨k1, k2, k3⟩ | k
  · left
    refine ⟨by rw [(g6 v).2.2.1]; exact (k1 v).mpr rfl,
      le_antisymm (hrun v).2 (by rw [(g6 v).1, ← hs.cfg]; exact k2), fun l hl => ⟨?_, ?_, ?_⟩⟩
    · rw [(g6 l).2.2.1]; exact k1.off l hl
    · rw [(g6 l).1, (k3 l hl).2.1, cc.runtime]; exact (hclear l).1
    · rw [(g6 l).2.1, (k3 l hl).2.2, cc.st l]; exact (hclear l).2.2
  · right
    rw [g1, hsame.2, ← hs.cfg]
    exact k

/-- Whether heat source `i` decides to heat after the draw of a step. -/
def decidesAfterDraw (s : Sim n k) (u : Sim.StepInput) (i : Fin k) : Res Bool := do
  let t ← ({ s.tank with outletT := 0, standbyLosses_kJ := 0 } : Tank n).updateNodes
    (s.cfg.minutesPerStep / 60) (60 * s.cfg.minutesPerStep) u.draw_L s.inletT (s.tankAirT u) u.inletVol2_L u.inletT2
  let p ← ({ s.resetOutputs.toPlant with tank := t } : Plant n).updateSoC
  (s.cfg.src i).shouldHeat p

theorem calls_of_decision {s : Sim n k} {u : Sim.StepInput} {i : Fin k} (key : decidesAfterDraw s u i = .ok true)
    {p : Plant n} (hp : AfterDraw s u p) : Calls s p i := by
  obtain ⟨t, ht, hp⟩ := hp
  unfold decidesAfterDraw at key
  unfold Sim.DrawnTank at ht
  obtain ⟨t', e, key⟩ := (bind_ok_iff _ _ _).mp key
  obtain rfl := Except.ok.inj (ht.symm.trans e)
  obtain ⟨p', e, key⟩ := (bind_ok_iff _ _ _).mp key
  obtain rfl := Except.ok.inj (hp.symm.trans e)
  exact (C28_decisions _ _ _ key).1.mp rfl

/-- `turnSim` with the lower element on. -/
def usurpedSim : Sim 1 2 :=
  { turnSim with st := ![⟨false, false, 0, 0, 0⟩, ⟨true, false, 0, 0, 0⟩], isHeating := true }

/-- The lower element is on and the upper one, which has priority, takes over. -/
example : (∃ lo, usurpedSim.Accountable (turnInput false).step lo ⊤) ∧ OneAtMost usurpedSim ∧
    Priority usurpedSim 0 ∧ usurpedSim.WarmsOnly ⊤ ∧ EvenlySpread (usurpedSim.cfg.src 0).heatDist 2 ∧
    (∀ p, AfterDraw usurpedSim (turnInput false).step p → Calls usurpedSim p 0) ∧
    ∃ s', Sim.runOneStep sampleLibm 5 usurpedSim (turnInput false).step = .ok s' ∧ (s'.st 0).isOn = true ∧
      (s'.st 0).runtime_min = 1 ∧ (s'.st 1).isOn = false ∧ (s'.st 1).runtime_min = 0 := by
  have acc : usurpedSim.AlwaysAccountable := { turnSim_accountable with }
  refine ⟨acc.accountable _ (by decide +kernel) (by decide +kernel), ⟨by decide +kernel, by decide +kernel⟩,
    ⟨⟨_, rfl⟩, by decide +kernel, by decide +kernel⟩, fun i c hc => ?_, ⟨1, by decide +kernel⟩,
    fun p hp => calls_of_decision (by decide +kernel) hp, by decide +kernel⟩
  obtain ⟨w, hw⟩ := turnSim_elements.1.element i
  rw [show (usurpedSim.cfg.src i).kind = _ from hw] at hc
  cases hc

/-- `sampleSim`, which has a heat pump, with the heat pump on, and the element heating the upper half with priority. -/
def hybridSim : Sim 3 2 :=
  { sampleSim with
    cfg := { sampleSim.cfg with
      src := ![sampleSim.cfg.src 0,
               { sampleSim.cfg.src 1 with
                 isVIP := true, heatDist := [⟨1 / 2, 0⟩, ⟨1, 1⟩]
                 turnOn := [⟨.temp true .top, 51, .less, false, false, ""⟩] }] }
    st := ![⟨true, false, 0, 0, 0⟩, ⟨false, false, 0, 0, 0⟩], isHeating := true }

/-- The heat pump is on and the element takes over. -/
example : hybridSim.Accountable { sampleInput with extraHeat_W := [] } 0 ⊤ ∧ OneAtMost hybridSim ∧ Priority hybridSim 1 ∧
    hybridSim.WarmsOnly ⊤ ∧ EvenlySpread (hybridSim.cfg.src 1).heatDist 4 ∧
    (∀ p, AfterDraw hybridSim { sampleInput with extraHeat_W := [] } p → Calls hybridSim p 1) ∧
    ∃ s', Sim.runOneStep sampleLibm 5 hybridSim { sampleInput with extraHeat_W := [] } = .ok s' ∧ (s'.st 0).isOn = false ∧
      (s'.st 0).runtime_min = 0 ∧ (s'.st 1).isOn = true ∧ (s'.st 1).runtime_min = 1 := by
  refine ⟨{ sampleSim_accountable with extra := by decide +kernel, sound := ?_ },
    ⟨by decide +kernel, by decide +kernel⟩,
    ⟨⟨_, rfl⟩, by decide +kernel, by decide +kernel⟩, ?_, ⟨1 / 2, by decide +kernel⟩,
    fun p hp => calls_of_decision (by decide +kernel) hp, by decide +kernel⟩
  · intro i
    match i with
    | 0 => exact sampleSim_sound _ _ _ _ 0
    | 1 =>
      refine ⟨fun p hp => ?_, fun c hc _ => ?_, fun c hc hx => ?_, fun c hc _ _ w perf _ _ h => ?_⟩
      · injection hp with hp
        rw [← hp]
        exact ⟨by norm_num, by decide +kernel, by decide +kernel⟩
      all_goals cases hc
  · intro i c hc he
    have : ∀ i, (match (hybridSim.cfg.src i).kind with
        | .condenser c => decide (c.configuration ≠ .external)
        | _ => true) = true := by decide +kernel
    have := this i
    rw [hc] at this
    exact absurd he (of_decide_eq_true this)

end HPWH
