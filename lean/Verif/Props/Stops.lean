import Verif.Spec.Stops
import Verif.Props.Recovery
import Verif.Props.Reasons
import Verif.Props.Init

/-! # C101: a resistance heater stops only when it is done -/

namespace HPWH

open Spec
open _root_.HPWH.Units

variable {n k : ℕ}

/-! ## Early ends -/

/-- Heat spread evenly is left over only if all water above the lowest heated node has reached the cap. -/
theorem heatLoop_full (offered cap maxW : ℚ) (dist : Nodes n ℚ) (hoff : 0 ≤ offered) (hpos : 0 < maxW)
    (hd : ∀ i, dist i = 0 ∨ dist i = maxW) :
    ∀ (i : ℕ) (h : i ≤ n + 1) (leftover : ℚ) (t : Tank n), 0 < t.nodeCp → 0 ≤ leftover → Monotone t.nodeTs →
      (0 < leftover → ∀ a b : Fin (n + 1), i ≤ a.val → dist a ≠ 0 → a ≤ b → cap ≤ t.nodeTs b) →
      0 < (heatLoop offered cap maxW dist i h leftover t).1 →
      ∀ a b : Fin (n + 1), dist a ≠ 0 → a ≤ b → cap ≤ (heatLoop offered cap maxW dist i h leftover t).2.nodeTs b := by
  intro i
  induction i with
  | zero =>
    intro h L t _ _ _ hf hL a b ha hab
    exact hf hL a b (Nat.zero_le _) ha hab
  | succ i ih =>
    intro h L t hcp hL hm hf
    have hi : i < n + 1 := by omega
    rw [heatLoop]
    dsimp only
    rcases hd ⟨i, hi⟩ with e | e
    · rw [e]
      have hz : (0 : ℚ) * offered + (L - (1 - 0 / maxW) ^ 2 * L) = 0 := by ring
      rw [hz, if_neg (lt_irrefl 0)]
      refine ih (by omega) L t hcp hL hm fun h0 a b ha hne hab => hf h0 a b ?_ hne hab
      rcases Nat.lt_or_ge i a.val with h1 | h1
      · exact h1
      · exact absurd (by rw [← e]; congr 1; exact Fin.ext (le_antisymm h1 ha)) hne
    · rw [e]
      have hz : (1 - maxW / maxW) ^ 2 * L = 0 := by rw [div_self hpos.ne']; ring
      rw [hz]
      by_cases hav : maxW * offered + (L - 0) > 0
      · rw [if_pos hav]
        obtain ⟨h1, h2⟩ := t.addHeatAboveNode_spec (maxW * offered + (L - 0)) ⟨i, hi⟩ cap hcp hm hav.le
        refine ih (by omega) _ _ ?_ (by simpa using h2.nonneg) h2.mono fun h0 a b ha _ hab => ?_
        · rw [h1]; exact hcp
        · exact h2.full (by simpa using h0) b (le_trans (show (⟨i, hi⟩ : Fin (n + 1)) ≤ a from ha) hab)
      · rw [if_neg hav]
        have : L = 0 := by
          have := mul_nonneg hpos.le hoff
          linarith
        refine ih (by omega) L t hcp hL hm fun h0 => ?_
        rw [this] at h0
        exact absurd h0 (lt_irrefl _)

/-- An element that spreads its heat evenly finishes early only when all water above it is hot. -/
theorem resistanceAddHeat_full {s : SourceCfg n k} {power : ℚ} {p p' : Plant n} {st st' : SourceState} {minutes : ℚ}
    (hp : 0 < power) (hmin : 0 ≤ minutes) (hcp : 0 < p.tank.nodeCp) (hm : Monotone p.tank.nodeTs) (hd : s.heatDist.Proper)
    (he : EvenlySpread s.heatDist (n + 1)) (h : resistanceAddHeat s power p st minutes = .ok (p', st'))
    (hearly : st'.runtime_min < minutes) : HotAbove s p' := by
  unfold resistanceAddHeat at h
  rw [WDist.calcHeatDist_eq hd (Nat.succ_pos n)] at h
  obtain ⟨dist, e, h⟩ := (bind_ok_iff _ _ _).mp h
  obtain rfl := Except.ok.inj e
  obtain ⟨r, hr, h⟩ := (bind_ok_iff _ _ _).mp h
  by_cases h0 : power * (minutes * secPerMin) = 0
  · rw [if_pos h0] at h; cases h
  rw [if_neg h0] at h
  dsimp only at h
  split_ifs at h with hneg
  obtain ⟨rfl, rfl⟩ := Prod.mk.inj (Except.ok.inj h)
  have hoff : 0 < power * (minutes * secPerMin) := by
    refine lt_of_le_of_ne ?_ (Ne.symm h0)
    unfold secPerMin
    positivity
  have hleft : 0 < r.1 := by
    by_contra hc
    have hmin' : 0 < minutes := by
      rcases lt_or_eq_of_le hmin with h1 | h1
      · exact h1
      · rw [← h1] at h0; simp at h0
    have : r.1 / (power * (minutes * secPerMin)) ≤ 0 := div_nonpos_of_nonpos_of_nonneg (not_lt.mp hc) hoff.le
    have h2 : minutes ≤ (1 - r.1 / (power * (minutes * secPerMin))) * minutes := by nlinarith
    exact absurd hearly (not_lt.mpr h2)
  unfold heat at hr
  split_ifs at hr with hz
  obtain rfl := Except.ok.inj hr
  have hnn : ∀ i : Fin (n + 1), 0 ≤ s.heatDist.share (n + 1) i := fun i => WDist.share_nonneg hd _ _
  obtain ⟨w, hw⟩ := he
  have hle := le_maxWeight (n := n) fun i => s.heatDist.share (n + 1) i
  have hpos : 0 < maxWeight (n := n) fun i => s.heatDist.share (n + 1) i :=
    lt_of_le_of_ne ((hnn 0).trans (hle 0)) (Ne.symm hz)
  have hmax : maxWeight (n := n) (fun i => s.heatDist.share (n + 1) i) = w := by
    obtain ⟨i, -, hi⟩ := Finset.exists_mem_eq_sup' (s := Finset.univ) (H := ⟨0, Finset.mem_univ _⟩)
      (fun i : Fin (n + 1) => s.heatDist.share (n + 1) i)
    have hi : maxWeight (n := n) (fun i => s.heatDist.share (n + 1) i) = s.heatDist.share (n + 1) i := hi
    rcases hw i with h1 | h1
    · rw [hi, h1] at hpos; exact absurd hpos (lt_irrefl _)
    · rw [hi, h1]
  exact fun a b ha hab => heatLoop_full _ _ _ _ hoff.le hpos (fun i => by rw [hmax]; exact hw i) (n + 1) le_rfl 0 p.tank hcp le_rfl
    hm (fun h0 => absurd h0 (lt_irrefl _)) hleft a b ha hab

theorem resistanceAddHeat_on {s : SourceCfg n k} {power : ℚ} {p p' : Plant n} {st st' : SourceState} {minutes : ℚ}
    (h : resistanceAddHeat s power p st minutes = .ok (p', st')) : st'.isOn = st.isOn := by
  unfold resistanceAddHeat at h
  obtain ⟨dist, e, h⟩ := (bind_ok_iff _ _ _).mp h
  obtain ⟨r, hr, h⟩ := (bind_ok_iff _ _ _).mp h
  dsimp only at h
  split_ifs at h
  obtain ⟨rfl, rfl⟩ := Prod.mk.inj (Except.ok.inj h)
  rfl

/-! ## Choosing -/

/-- Control has left an element on; or nothing was on; or one was on that is told to shut off. -/
def Stopped (s0 s : Sim n k) : Prop :=
  (∃ i, (s.st i).isOn = true) ∨ (∀ i, (s0.st i).isOn = false) ∨
    ∃ i, (s0.st i).isOn = true ∧ ToldToShutOff (s0.cfg.src i) s0.toPlant

/-- What is on was on or is not told to shut off. -/
def Wanted (s0 s : Sim n k) : Prop :=
  ∀ i, (s.st i).isOn = true → (s0.st i).isOn = true ∨ ¬ ToldToShutOff (s0.cfg.src i) s0.toPlant

theorem chooseBody_stopped {dr : DR} {s0 s : Sim n k} {i : Fin k} {r : Sim n k × Bool} (he : ElementsOnly s)
    (hc : CtrlEq s0 s) (hs : Stopped s0 s) (hw : Wanted s0 s) (h1 : s.chooseBody dr i = .ok r) :
    Stopped s0 r.1 ∧ Wanted s0 r.1 := by
  have hcfg : s.cfg = s0.cfg := hc.cfg
  have hpl : s.toPlant = s0.toPlant := hc.plant
  have start : ∀ (a : Sim n k), a.toPlant = s0.toPlant → (∀ j, (a.st j).isOn = true → (s.st j).isOn = true) →
      (s.cfg.src i).shouldHeat a.toPlant = .ok true → Stopped s0 (a.switched i) ∧ Wanted s0 (a.switched i) := by
    intro a ha hon hh
    refine ⟨.inl ⟨i, switched_on.mpr (.inl rfl)⟩, fun j hj => ?_⟩
    rcases switched_on.mp hj with rfl | hj
    · have := (calls_iff hh).mp rfl
      rw [ha] at this
      right
      rw [← hcfg]
      exact this.2
    · exact hw j (hon j hj)
  unfold Sim.chooseBody at h1
  by_cases hh : s.isHeating = true
  · rw [if_pos hh] at h1
    obtain ⟨s1, h2, h1⟩ := (bind_ok_iff _ _ _).mp h1
    have c1 := CtrlEq.handOver h2
    have base : Stopped s0 s1 ∧ Wanted s0 s1 ∧ ∀ j, (s1.st j).isOn = true → (s.st j).isOn = true := by
      unfold Sim.handOver at h2
      rw [he.noBackup] at h2
      obtain ⟨off, ho, h2⟩ := (bind_ok_iff _ _ _).mp h2
      cases off
      · cases h2; exact ⟨hs, hw, fun _ h => h⟩
      · cases h2
        refine ⟨?_, fun j hj => hw j (disengage_on.mp hj).2, fun j hj => (disengage_on.mp hj).2⟩
        unfold Sim.engagedShutsOff at ho
        by_cases hon : (s.st i).isOn = true
        · rw [if_pos hon] at ho
          have told := (shutsOff_iff _ _ _ ho).mp rfl
          rw [hpl, hcfg] at told
          rcases hw i hon with h3 | h3
          · exact .inr (.inr ⟨i, h3, told⟩)
          · exact absurd told h3
        · rw [if_neg hon] at ho; cases ho
    cases hv : (s.cfg.src i).isVIP with
    | false => rw [hv] at h1; cases h1; exact ⟨base.1, base.2.1⟩
    | true =>
      rw [hv, if_pos rfl] at h1
      obtain ⟨want, h3, h1⟩ := (bind_ok_iff _ _ _).mp h1
      cases want
      · cases h1; exact ⟨base.1, base.2.1⟩
      · rw [if_pos rfl] at h1
        by_cases hl : shouldDRLockOut (s.cfg.src i).kind dr = true
        · rw [if_pos hl, he.noCompressor] at h1
          cases h1; exact ⟨base.1, base.2.1⟩
        · rw [if_neg hl] at h1
          obtain ⟨s2, h4, h1⟩ := (bind_ok_iff _ _ _).mp h1
          cases h1
          rw [engage_alone (s := s1.turnAllOff) (show (s1.cfg.src i).companion = none by rw [c1.cfg]; exact he.noCompanion i)]
            at h4
          cases h4
          exact start s1.turnAllOff (c1.plant.trans hpl) (fun j hj => by cases hj) h3
  · rw [if_neg hh] at h1
    obtain ⟨want, h3, h1⟩ := (bind_ok_iff _ _ _).mp h1
    cases want
    · cases h1; exact ⟨hs, hw⟩
    · rw [if_pos rfl] at h1
      obtain ⟨s2, h4, h1⟩ := (bind_ok_iff _ _ _).mp h1
      cases h1
      rw [engage_alone (he.noCompanion i)] at h4
      cases h4
      exact start s hpl (fun _ h => h) h3

theorem chooseLoop_stopped {dr : DR} {s0 : Sim n k} (he : ElementsOnly s0) : ∀ (is : List (Fin k)) (s s' : Sim n k),
    CtrlEq s0 s → Stopped s0 s → Wanted s0 s → s.chooseLoop dr is = .ok s' → Stopped s0 s'
  | [], s, s', _, hs, _, h1 => by cases h1; exact hs
  | i :: is, s, s', hc, hs, hw, h1 => by
    rw [Sim.chooseLoop] at h1
    obtain ⟨r, h2, h1⟩ := (bind_ok_iff _ _ _).mp h1
    obtain ⟨a1, a2⟩ := chooseBody_stopped (he.of_cfg hc.cfg) hc hs hw h2
    cases hr : r.2 with
    | true => rw [hr] at h1; cases h1; exact a1
    | false =>
      rw [hr] at h1
      exact chooseLoop_stopped he is r.1 s' (hc.trans (CtrlEq.chooseBody h2)) a1 a2 h1

/-! ## Heating -/

/-- During the heating of a step: an element is on; or none is, and `G` holds of the water. -/
def Going (G : Sim n k → Prop) (s : Sim n k) : Prop := (∃ i, (s.st i).isOn = true) ∨ G s

/-- Nothing has been on; or one was on and is told to shut off; or the last is done. -/
def Over (s0 s : Sim n k) : Prop :=
  (∀ i, (s0.st i).isOn = false ∧ (s.st i).runtime_min = 0) ∨
  (∃ i, (s0.st i).isOn = true ∧ ToldToShutOff (s0.cfg.src i) s.toPlant) ∨ Finished s0.cfg s.toPlant

theorem Over.ctrl {s0 s s' : Sim n k} (h : Over s0 s) (c : CtrlEq s s') : Over s0 s' := by
  rcases h with h | h | h
  · exact .inl fun i => ⟨(h i).1, (c.runtime i).trans (h i).2⟩
  · rw [← c.plant] at h; exact .inr (.inl h)
  · rw [← c.plant] at h; exact .inr (.inr h)

theorem heatBody_stops {m : Libm} {fuel : ℕ} {dr : DR} {amb : ℚ} {s0 s : Sim n k} {lo : ℚ}
    {hi : WithTop ℚ} (hS : ∀ j, (s0.cfg.src j).Sound s0.setpoint amb lo hi) (ht : s0.tank.Consistent) (he : ElementsOnly s0)
    (hev : ∀ i, EvenlySpread (s0.cfg.src i).heatDist (n + 1)) (hlor : dr.lor = false) {i : Fin k}
    {is : List (Fin k)} {minutes : ℚ} (inv : TurnInv s0 lo hi (i :: is) s minutes)
    (hb : Going (Over s0) s) {r : Sim n k × ℚ}
    (h : s.heatBody m fuel dr amb i minutes = .ok r) : Going (Over s0) r.1 := by
  have hes : ElementsOnly s := he.of_cfg inv.step.cfg
  unfold Sim.heatBody at h
  obtain ⟨s1, h1, h⟩ := (bind_ok_iff _ _ _).mp h
  have c1 := CtrlEq.applyLocks h1
  have on1 : ∀ j, (s1.st j).isOn = (s.st j).isOn := by
    obtain ⟨w, hw⟩ := hes.element i
    unfold Sim.applyLocks Sim.lockUnlock at h1
    rw [hw] at h1
    have hdr : shouldDRLockOut (.resistance w) dr = false := hlor
    rw [hdr, if_neg (by decide)] at h1
    obtain ⟨a, ha, h1⟩ := (bind_ok_iff _ _ _).mp h1
    cases ha
    rw [if_neg (by simp [Sim.setSt])] at h1
    cases h1
    intro j
    unfold Sim.setSt
    by_cases hj : j = i
    · subst hj; simp
    · simp [hj]
  have st1 := inv.step.ctrl c1
  obtain ⟨a1, -, a3⟩ := applyLocks_alone hes inv.alone h1
  by_cases hon : (s1.st i).isOn = true
  · rw [if_pos hon] at h
    obtain ⟨p, hp, h⟩ := (bind_ok_iff _ _ _).mp h
    unfold Sim.pickSource at hp
    rw [a3 hon] at hp
    cases hp
    dsimp only at h
    unfold Sim.runSource at h
    obtain ⟨s2, h2, h⟩ := (bind_ok_iff _ _ _).mp h
    obtain ⟨w, hw⟩ := he.element i
    have hw1 : (s1.cfg.src i).kind = .resistance w := by rw [st1.cfg]; exact hw
    have h2a : s1.addHeat m fuel i amb minutes = .ok s2 := by
      unfold Sim.addHeatParent at h2
      rw [hw1] at h2
      exact h2
    obtain ⟨ek, e2⟩ := addHeat_spec h2a
    have hcp1 : 0 < s1.tank.nodeCp := by
      have h3 : s1.tank.toTankCfg = s0.tank.toTankCfg := by rw [st1.same.1]
      have h4 : s1.tank.nodeCp = s0.tank.nodeCp := by rw [h3]
      rw [h4]
      exact ht.nodeCp_pos
    have hcfg2 : s2.cfg = s0.cfg := (addHeat_cfg h2a).trans st1.cfg
    by_cases hlt : (s2.st i).runtime_min < minutes
    · rw [if_pos hlt] at h
      obtain ⟨s3, h3, h⟩ := (bind_ok_iff _ _ _).mp h
      cases h
      have hot : HotAbove (s0.cfg.src i) s2.toPlant := by
        unfold Sim.addHeatKind at ek
        rw [hw1] at ek
        obtain ⟨hpw, hpr⟩ := (hS i).resistance w hw
        have hcs : s1.cfg.src i = s0.cfg.src i := by rw [st1.cfg]
        rw [hcs] at ek
        exact resistanceAddHeat_full hpw inv.nonneg (hcp1) st1.mono hpr (hev i) ek hlt
      unfold Sim.afterEarly at h3
      obtain ⟨fo, hfo, h3⟩ := (bind_ok_iff _ _ _).mp h3
      cases fo with
      | some f =>
        dsimp only at h3
        rw [engage_alone (s := s2.disengage i) (show (s2.cfg.src f).companion = none by rw [hcfg2]; exact he.noCompanion f)]
          at h3
        cases h3
        exact .inl ⟨f, switched_on.mpr (.inl rfl)⟩
      | none =>
        obtain ⟨mx, hmx, h3⟩ := (bind_ok_iff _ _ _).mp h3
        unfold SourceCfg.maxedOut at hmx
        rw [hcfg2, hw] at hmx
        cases hmx
        cases h3
        refine .inr (.inr (.inr ⟨i, hot, fun f hf => ?_⟩))
        unfold Sim.follower at hfo
        have hcd : (s2.disengage i).cfg = s0.cfg := hcfg2
        rw [hcd, hf] at hfo
        obtain ⟨off, ho, hfo⟩ := (bind_ok_iff _ _ _).mp hfo
        have hfo := Except.ok.inj hfo
        split_ifs at hfo with hoff
        exact (shutsOff_iff _ _ _ ho).mp hoff
    · rw [if_neg hlt] at h
      cases h
      refine .inl ⟨i, ?_⟩
      unfold Sim.addHeatKind at ek
      rw [hw1] at ek
      exact (resistanceAddHeat_on ek).trans hon
  · rw [if_neg hon] at h
    cases h
    rcases hb with ⟨j, hj⟩ | hb
    · exact .inl ⟨j, (on1 j).trans hj⟩
    · exact .inr (hb.ctrl c1)

theorem heatSrcLoop_stops {m : Libm} (hexp : ∀ x, 0 ≤ m.exp x) {fuel : ℕ} {dr : DR} {amb : ℚ} {s0 : Sim n k} {lo : ℚ}
    {hi : WithTop ℚ} (hS : ∀ j, (s0.cfg.src j).Sound s0.setpoint amb lo hi) (hn : n + 1 ≤ 10000)
    (ht : s0.tank.Consistent) (hmix : s0.tank.doInversionMixing = true) (hset : (s0.setpoint : WithTop ℚ) ≤ hi)
    (habs : Sim.noSetpoint < s0.setpoint) (he : ElementsOnly s0)
    (hev : ∀ i, EvenlySpread (s0.cfg.src i).heatDist (n + 1)) (hlor : dr.lor = false) :
    ∀ (is : List (Fin k)), is.Nodup →
    ∀ {s : Sim n k} {minutes : ℚ}, TurnInv s0 lo hi is s minutes → Going (Over s0) s → ∀ {s' : Sim n k},
      s.heatSrcLoop m fuel dr amb is minutes = .ok s' → Going (Over s0) s'
  | [], _, s, minutes, _, hb, s', h => by cases h; exact hb
  | i :: is, hnd, s, minutes, inv, hb, s', h => by
    rw [Sim.heatSrcLoop] at h
    obtain ⟨r, h1, h⟩ := (bind_ok_iff _ _ _).mp h
    exact heatSrcLoop_stops hexp hS hn ht hmix hset habs he hev hlor is (List.nodup_cons.mp hnd).2
      (heatBody_alone hexp hS hn ht hmix hset habs he hnd inv h1) (heatBody_stops hS ht he hev hlor inv hb h1) h

theorem control_stops {m : Libm} (hexp : ∀ x, 0 ≤ m.exp x) {fuel : ℕ} {dr : DR} {amb : ℚ} {s0 s' : Sim n k} {lo : ℚ}
    {hi : WithTop ℚ} (hS : ∀ j, (s0.cfg.src j).Sound s0.setpoint amb lo hi) (hn : n + 1 ≤ 10000)
    (ht : s0.tank.Consistent) (hmix : s0.tank.doInversionMixing = true) (hset : (s0.setpoint : WithTop ℚ) ≤ hi)
    (habs : Sim.noSetpoint < s0.setpoint) (he : ElementsOnly s0)
    (hev : ∀ i, EvenlySpread (s0.cfg.src i).heatDist (n + 1)) (hlor : dr.lor = false) (ha : OneAtMost s0)
    (htop : dr.too = false ∧ dr.tot = false) (hi0 : StepInv s0 s0 lo hi) (hM : 0 ≤ s0.cfg.minutesPerStep)
    (hclear : ∀ i, (s0.st i).runtime_min = 0 ∧ (s0.st i).energyInput_kWh = 0)
    (h : s0.control m fuel dr amb = .ok s') : Going (Over s0) s' := by
  unfold Sim.control at h
  obtain ⟨s1, h1, h⟩ := (bind_ok_iff _ _ _).mp h
  have key : Going (Over s0) s1 := by
    unfold Sim.normalControl at h1
    rw [hlor, Bool.and_false, if_neg (by decide)] at h1
    obtain ⟨a, h2, h1⟩ := (bind_ok_iff _ _ _).mp h1
    unfold Sim.topOff at h2
    rw [htop.1, htop.2] at h2
    cases h2
    obtain ⟨b, h2, h1⟩ := (bind_ok_iff _ _ _).mp h1
    have c := CtrlEq.chooseLoop h2
    have al := chooseLoop_alone _ _ _ he ha h2
    have hz : ∑ i, (b.st i).runtime_min = 0 := Finset.sum_eq_zero fun j _ => by rw [c.runtime]; exact (hclear j).1
    have start : TurnInv s0 lo hi (List.finRange k) b s0.cfg.minutesPerStep := by
      refine ⟨hi0.ctrl c, al, hM, le_rfl, fun j _ => by rw [c.runtime]; exact (hclear j).1, fun j w _ => ?_,
        by rw [hz]; exact hM, .inl (by rw [hz]; linarith)⟩
      rw [c.input, c.runtime, (hclear j).1, (hclear j).2]
      ring
    refine heatSrcLoop_stops hexp hS hn ht hmix hset habs he hev hlor (List.finRange k) (List.nodup_finRange k) start ?_ h1
    have hstop : Stopped s0 s0 := by
      by_cases hany : ∃ i, (s0.st i).isOn = true
      · exact .inl hany
      · exact .inr (.inl fun i => by
          by_contra hc
          exact hany ⟨i, by simpa using hc⟩)
    rcases chooseLoop_stopped he _ _ _ (CtrlEq.refl s0) hstop (fun _ h => .inl h) h2 with h3 | h3 | h3
    · exact .inl h3
    · exact .inr (.inl fun i => ⟨h3 i, (c.runtime i).trans (hclear i).1⟩)
    · exact .inr (.inr (.inl (by rw [c.plant]; exact h3)))
  cases h
  split_ifs
  · exact key
  · exact key

/-- **C101.** A resistance heater stops only when it is done. Suppose elements are not locked out, no top-off is asked for
and each element spreads its heat evenly over the nodes it heats. If an element was on before a step or ran during it, and
none is on after it, then an element that was on is told to shut off by the water as the step leaves it, or some element has
brought all water from the lowest node it heats upwards to the setpoint and the element that follows it, if there is one, is
told to shut off. -/
theorem C101_stops (m : Libm) (hexp : ∀ x, 0 ≤ m.exp x) (fuel : ℕ) (s s' : Sim n k) (u : Sim.StepInput) (lo : ℚ)
    (hi : WithTop ℚ) (ha : s.Accountable u lo hi) (he : ElementsOnly s) (h1 : OneAtMost s)
    (hev : ∀ i, EvenlySpread (s.cfg.src i).heatDist (n + 1)) (hlor : u.dr.lor = false)
    (htop : u.dr.too = false ∧ u.dr.tot = false) (hext : u.extraHeat_W = [])
    (h : Sim.runOneStep m fuel s u = .ok s') (hran : ∃ i, (s.st i).isOn = true ∨ 0 < (s'.st i).runtime_min)
    (hoff : ∀ i, (s'.st i).isOn = false) :
    (∃ i, (s.st i).isOn = true ∧ ToldToShutOff (s.cfg.src i) s'.toPlant) ∨ Finished s.cfg s'.toPlant := by
  obtain ⟨-, s0, s1, s2, hs, hctl, h2, rfl⟩ := runOneStep_ok h
  have hw := ha.wellFormed
  have hdrawn := hs.drawn
  unfold Sim.DrawnTank at hdrawn
  have hw0 : Tank.WellFormed { s.tank with outletT := 0, standbyLosses_kJ := 0 } := hw.of_cfg rfl
  obtain ⟨f1, f2⟩ := updateNodes_facts _ _ hw0 _ _ _ _ _ _ _ ha.draw hdrawn
  have hcfg0 : s0.tank.toTankCfg = s.tank.toTankCfg := f1
  have hws : s0.tank.WellFormed := hw.of_cfg hcfg0
  have hr := ha.range _ hs.drawn
  have hstep : 0 ≤ s0.cfg.minutesPerStep := by rw [hs.cfg]; exact ha.step
  have he0 : ElementsOnly s0 := he.of_cfg hs.cfg
  have h10 : OneAtMost s0 := ⟨fun i j hi hj => h1.alone i j (by rw [hs.st] at hi; exact hi) (by rw [hs.st] at hj; exact hj),
    fun i hi => by rw [hs.isHeating]; exact h1.known i (by rw [hs.st] at hi; exact hi)⟩
  have hb := control_stops hexp (fun j => by rw [hs.cfg, hs.setpoint]; exact ha.sound j) ha.nodes
    hws.toConsistent (by rw [hcfg0]; exact ha.mixing) (by rw [hs.setpoint]; exact ha.setpoint)
    (by rw [hs.setpoint]; exact ha.absolute) he0 (by rw [hs.cfg]; exact hev) hlor h10 htop
    (StepInv.init s0 lo hi (f2 ha.mixing) (fun j => (hr j).1)
      (fun j => (hr j).2) (fun i => by rw [hs.st]; rfl) hstep) hstep
    (fun i => by rw [hs.st]; exact ⟨rfl, rfl⟩) hctl
  obtain ⟨-, -, -, -, -, -, -, x⟩ := extraStep_frame h2
  obtain ⟨g1, -, -, -, -, g6, -, -⟩ := finish_facts s2 u.tankAmbient u.dr
  obtain rfl := x hext
  rw [g1]
  rcases hb with ⟨i, hi⟩ | hb | hb | hb
  · have := hoff i
    rw [(g6 i).2.2.1, hi] at this
    cases this
  · obtain ⟨i, hi⟩ := hran
    have h3 := hb i
    rw [hs.st] at h3
    rcases hi with hi | hi
    · exact absurd (hi.symm.trans h3.1) (by decide)
    · rw [(g6 i).1, h3.2] at hi
      exact absurd hi (lt_irrefl _)
  · obtain ⟨i, h3, h4⟩ := hb
    rw [hs.st] at h3
    rw [hs.cfg] at h4
    exact .inl ⟨i, h3, h4⟩
  · rw [hs.cfg] at hb
    exact .inr hb

/-- **C101.** So if no element has a shut-off logic, elements nothing follows heat the lowest node and the setpoint is at
most 100 °C, then heating stops only when all water in the tank is at the setpoint. -/
theorem C101_all_hot (m : Libm) (hexp : ∀ x, 0 ≤ m.exp x) (fuel : ℕ) (s s' : Sim n k) (u : Sim.StepInput) (lo : ℚ)
    (hi : WithTop ℚ) (ha : s.Accountable u lo hi) (he : ElementsOnly s) (h1 : OneAtMost s)
    (hev : ∀ i, EvenlySpread (s.cfg.src i).heatDist (n + 1)) (hlor : u.dr.lor = false)
    (htop : u.dr.too = false ∧ u.dr.tot = false) (hext : u.extraHeat_W = [])
    (hlog : ∀ i, (s.cfg.src i).shutOff = [])
    (hlast : ∀ i, (s.cfg.src i).followedBy = none → (s.cfg.src i).heatDist.share (n + 1) 0 ≠ 0) (hset : s.setpoint ≤ 100)
    (h : Sim.runOneStep m fuel s u = .ok s') (hran : ∃ i, (s.st i).isOn = true ∨ 0 < (s'.st i).runtime_min)
    (hoff : ∀ i, (s'.st i).isOn = false) (j : Fin (n + 1)) : s.setpoint ≤ s'.tank.nodeTs j := by
  obtain ⟨-, -, -, hmono, -, -, hsp, -⟩ := step_facts m hexp fuel s s' u lo hi ha h
  have told : ∀ i, ToldToShutOff (s.cfg.src i) s'.toPlant → s.setpoint ≤ s'.tank.nodeTs j := by
    intro i hi
    rcases hi with hi | ⟨l, hl, -⟩
    · rw [hsp] at hi
      exact hi.trans (hmono (Fin.zero_le j))
    · rw [hlog i] at hl
      cases hl
  rcases C101_stops m hexp fuel s s' u lo hi ha he h1 hev hlor htop hext h hran hoff with ⟨i, -, hi⟩ | ⟨i, hot, hf⟩
  · exact told i hi
  · cases hfb : (s.cfg.src i).followedBy with
    | some f => exact told f (hf f hfb)
    | none =>
      have := hot 0 j (hlast i hfb) (Fin.zero_le j)
      rw [hsp, min_eq_right hset] at this
      exact this

theorem twelfth_even (a : ℕ) (ha : a = 0 ∨ a = 8) : EvenlySpread (twelfth a) 12 := by
  rcases ha with rfl | rfl
  · exact ⟨1, by decide +kernel⟩
  · exact ⟨1, by decide +kernel⟩

/-- **C101.** A resistance tank from `initResistanceTank` with both elements stops heating only when all its water is at the
setpoint, in every run without demand-response signals. -/
theorem C101_resistance_tank (m : Libm) (hexp : ∀ x, 0 ≤ m.exp x) (hl : LogLike m.log) (pow : ℚ → ℚ → ℚ)
    (hp : PowPos pow) (hp1 : ∀ x y, 0 ≤ x → x ≤ 1 → 0 ≤ pow x y ∧ pow x y ≤ 1) {n₀ k₀ : ℕ} (base : Sim n₀ k₀)
    (vol EF up low : ℚ) (hu : 0 < up) {k : ℕ} (s : ℕ → Sim 11 k)
    (h : initResistanceTank m pow base vol EF up low = .ok ⟨k, s 0⟩) (fuel : ℕ) (us : ℕ → Sim.RunInput) (N : ℕ)
    (hd : ∀ t < N, 0 ≤ (us t).draw_L) (hdr : ∀ t < N, (us t).dr = ⟨false, false, false, false⟩)
    (hr : ∀ t < N, Sim.runOneStep m fuel ((s t).setInletT (us t).inletT) (us t).step = .ok (s (t + 1)))
    (t : ℕ) (ht : t < N) (hran : ∃ i, ((s t).st i).isOn = true ∨ 0 < ((s (t + 1)).st i).runtime_min)
    (hoff : ∀ i, ((s (t + 1)).st i).isOn = false) (j : Fin 12) : (s 0).setpoint ≤ (s (t + 1)).tank.nodeTs j := by
  have hlow : 550 ≤ low := ((C81_accepted_iff m pow hp base vol EF up low).mp ⟨_, h⟩).2.2.2
  have hE : 0 < EF := ((C81_accepted_iff m pow hp base vol EF up low).mp ⟨_, h⟩).2.1
  unfold initResistanceTank at h
  rw [if_neg (not_lt.mpr hlow), if_neg (not_lt.mpr hu.le), if_neg (not_le.mpr hE), if_pos hu] at h
  obtain ⟨rfl, h⟩ := packed_ok h
  obtain ⟨hD, hA, h3, -, h4⟩ := elementTank_delivered m hl pow hp hp1 base
      (bothElements_good hu (by linarith : 0 < low)) false vol _ (s 0) h
  have both : ∀ i : Fin 2, i = 0 ∨ i = 1 := by decide
  have hkind : ∀ i, ∃ w, ((s 0).cfg.src i).kind = .resistance w := by
    intro i
    rw [h3]
    rcases both i with rfl | rfl
    · exact ⟨_, rfl⟩
    · exact ⟨_, rfl⟩
  have hcomp : (s 0).cfg.compressorIndex = none := by
    cases hc : (s 0).cfg.compressorIndex with
    | none => rfl
    | some i =>
      obtain ⟨c, hi, -⟩ := (h4.heatPump i).mp hc
      obtain ⟨w, hw⟩ := hkind i
      change ((s 0).cfg.src i).kind = _ at hi
      rw [hw] at hi
      cases hi
  have he : ElementsOnly (s 0) := ⟨hkind, fun i => by rw [h3]; rcases both i with rfl | rfl <;> rfl,
    fun i => by rw [h3]; rcases both i with rfl | rfl <;> rfl, hcomp⟩
  have h1 : OneAtMost (s 0) := ⟨fun i _ hi => absurd hi (by rw [hD.off]; decide),
    fun i hi => absurd hi (by rw [hD.off]; decide)⟩
  have key : ∀ t ≤ N, (s t).AlwaysAccountable ∧ OneAtMost (s t) ∧ (s t).cfg = (s 0).cfg ∧
      (s t).setpoint = (s 0).setpoint := by
    intro t
    induction t with
    | zero => intro _; exact ⟨hA, h1, rfl, rfl⟩
    | succ t ih =>
      intro ht
      obtain ⟨i1, i2, i3, i4⟩ := ih (by omega)
      have hstep := hr t ht
      obtain ⟨j1, -⟩ := i1.afterStep hexp (us t) (hd t ht) hstep
      have i1' : ((s t).setInletT (us t).inletT).AlwaysAccountable := ⟨i1.nodes, i1.volume, i1.nodeVolume, i1.nodeCp,
        i1.inlet, i1.inlet2, i1.mixBelow, i1.mixing, i1.effectiveness, i1.step, i1.absolute, i1.sound⟩
      obtain ⟨lo, hac⟩ := i1'.accountable (us t).step (hd t ht) (by simp [Sim.RunInput.step])
      obtain ⟨k1, -⟩ := C82_step m hexp fuel _ _ (us t).step lo ⊤ hac (he.of_cfg i3) ⟨i2.alone, i2.known⟩
        (by unfold Sim.RunInput.step; rw [hdr t ht]; exact ⟨rfl, rfl⟩) hstep
      obtain ⟨-, -, -, -, -, hcfg, hsp, -⟩ := step_facts m hexp fuel _ _ (us t).step lo ⊤ hac hstep
      exact ⟨j1, k1, hcfg.trans i3, hsp.trans i4⟩
  obtain ⟨i1, i2, i3, i4⟩ := key t ht.le
  have i1' : ((s t).setInletT (us t).inletT).AlwaysAccountable := ⟨i1.nodes, i1.volume, i1.nodeVolume, i1.nodeCp,
    i1.inlet, i1.inlet2, i1.mixBelow, i1.mixing, i1.effectiveness, i1.step, i1.absolute, i1.sound⟩
  obtain ⟨lo, hac⟩ := i1'.accountable (us t).step (hd t ht) (by simp [Sim.RunInput.step])
  have hcfg : ((s t).setInletT (us t).inletT).cfg = (s 0).cfg := i3
  have hsp : ((s t).setInletT (us t).inletT).setpoint = (s 0).setpoint := i4
  rw [← hsp]
  refine C101_all_hot m hexp fuel _ _ (us t).step lo ⊤ hac (he.of_cfg i3) ⟨i2.alone, i2.known⟩ ?_
    (by unfold Sim.RunInput.step; rw [hdr t ht]) (by unfold Sim.RunInput.step; rw [hdr t ht]; exact ⟨rfl, rfl⟩) rfl
    ?_ ?_ ?_ (hr t ht) hran hoff j
  · rw [hcfg]
    intro i
    rw [h3]
    rcases both i with rfl | rfl
    · exact twelfth_even 8 (.inr rfl)
    · exact twelfth_even 0 (.inl rfl)
  · rw [hcfg]
    intro i
    rw [h3]
    rcases both i with rfl | rfl <;> rfl
  · rw [hcfg]
    intro i hi
    rw [h3] at hi ⊢
    rcases both i with rfl | rfl
    · cases hi
    · change (twelfth 0).share 12 0 ≠ 0
      decide +kernel
  · rw [hsp, hD.setpoint]
    norm_num

/-! ## A case -/

/-- The hypotheses are met by `almostSim`, whose lower element is on until in the sixth minute all water reaches 50 °C. -/
example : (∃ i, ((almostStates 5).st i).isOn = true) ∧ (∀ i, ((almostStates 6).st i).isOn = false) ∧
    (∃ i, 0 < ((almostStates 6).st i).runtime_min) ∧
    (∀ j, (almostStates 5).tank.nodeTs j < 50) ∧ (∀ j, (almostStates 6).tank.nodeTs j = 50) ∧
    (∀ i, EvenlySpread (almostSim.cfg.src i).heatDist 2) ∧ (∀ i, (almostSim.cfg.src i).shutOff = []) ∧
    (∀ i, (almostSim.cfg.src i).followedBy = none → (almostSim.cfg.src i).heatDist.share 2 0 ≠ 0) ∧
    ElementsOnly almostSim ∧ OneAtMost almostSim := by
  refine ⟨by decide +kernel, by decide +kernel, by decide +kernel, by decide +kernel, by decide +kernel,
    fun i => ⟨1, ?_⟩, by decide +kernel, by decide +kernel, almostSim_elements.1, almostSim_elements.2.2.1⟩
  revert i
  decide +kernel

/-- When the upper element of `turnSim` is done within a step, the lower one takes over and heating goes on. -/
example : ∃ s', Sim.runOneStep sampleLibm 5
      { turnSim with
        tank := { turnSim.tank with nodeTs := ![20, 49] }
        st := ![⟨true, false, 0, 0, 0⟩, ⟨false, false, 0, 0, 0⟩]
        isHeating := true } quietMinute = .ok s' ∧
    (s'.st 0).isOn = false ∧ 0 < (s'.st 0).runtime_min ∧ (s'.st 1).isOn = true ∧ 0 < (s'.st 1).runtime_min := by
  decide +kernel

end HPWH
