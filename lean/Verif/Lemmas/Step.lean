import Verif.Lemmas.Sim
import Verif.Lemmas.MultiPass
import Verif.Props.Profile
import Verif.Spec.Step

/-! Helper lemmas about whole simulation steps. -/

namespace HPWH

open Spec

variable {n k : ℕ}

/-! ## Running one heat source -/

/-- What running a heat source on plant `p` for `minutes` leaves behind. -/
structure AddSpec (p p' : Plant n) (st st' : SourceState) (minutes lo : ℚ) (hi : WithTop ℚ) :
    Prop where
  same : p.SameSettings p'
  nonneg : 0 ≤ st'.runtime_min
  le : st'.runtime_min ≤ minutes
  energy : p.tank.nodeCp * ∑ j, p'.tank.nodeTs j = p.tank.nodeCp * ∑ j, p.tank.nodeTs j +
    3600 * (st'.energyOutput_kWh - st.energyOutput_kWh)
  mono : Monotone p'.tank.nodeTs
  lower : ∀ j, lo ≤ p'.tank.nodeTs j
  upper : ∀ j, (p'.tank.nodeTs j : WithTop ℚ) ≤ hi

theorem withTop_within {hi : WithTop ℚ} (T : Nodes n ℚ) (h : ∀ j, (T j : WithTop ℚ) ≤ hi) (x : ℚ)
    (hx : (x : WithTop ℚ) ≤ hi) : ∃ b : ℚ, (b : WithTop ℚ) ≤ hi ∧ (∀ j, T j ≤ b) ∧ x ≤ b := by
  refine ⟨max (maxWeight T) x, ?_, fun j => (le_maxWeight T j).trans (le_max_left _ _),
    le_max_right _ _⟩
  have : (maxWeight T : WithTop ℚ) ≤ hi := by
    obtain ⟨j, -, hj⟩ := Finset.exists_mem_eq_sup' ⟨0, Finset.mem_univ (0 : Fin (n + 1))⟩ T
    unfold maxWeight
    rw [hj]
    exact h j
  rcases le_total (maxWeight T) x with hle | hle
  · rw [max_eq_right hle]; exact hx
  · rw [max_eq_left hle]; exact this

theorem RunSpec.addSpec {p p' : Plant n} {st st' : SourceState} {lim minutes lo : ℚ}
    {hi : WithTop ℚ} (hr : RunSpec p.tank.nodeCp lim minutes p.tank.nodeTs p'.tank.nodeTs st st')
    (hs : p.SameSettings p') (hlo : ∀ j, lo ≤ p.tank.nodeTs j)
    (hhi : ∀ j, (p.tank.nodeTs j : WithTop ℚ) ≤ hi) (hlim : (lim : WithTop ℚ) ≤ hi) :
    AddSpec p p' st st' minutes lo hi := by
  refine ⟨hs, hr.nonneg, hr.le, hr.energy, hr.mono, fun j => (hlo j).trans (hr.warmer j),
    fun j => ?_⟩
  rcases hr.cap j with h | h
  · rw [h]; exact hhi j
  · exact (WithTop.coe_le_coe.mpr h).trans hlim

theorem resistanceAddHeat_minutes {s : SourceCfg n k} {power : ℚ} {p : Plant n} {st : SourceState}
    {minutes : ℚ} {r : Plant n × SourceState}
    (h : resistanceAddHeat s power p st minutes = .ok r) : minutes ≠ 0 := by
  rintro rfl
  unfold resistanceAddHeat at h
  rw [bind_ok_iff] at h
  obtain ⟨d, -, h⟩ := h
  dsimp only at h
  rw [bind_ok_iff] at h
  obtain ⟨q, -, h⟩ := h
  rw [if_pos (by ring)] at h
  cases h

theorem internalAddHeat_inv {exp : ℚ → ℚ} {s : SourceCfg n k} {c : CondCfg} {p : Plant n}
    {st : SourceState} {amb minutes : ℚ} {r : Plant n × SourceState}
    (h : internalAddHeat exp s c p st amb minutes = .ok r) :
    minutes ≠ 0 ∧ ∃ w perf, s.tankTemp p = .ok w ∧
      c.getPerformance s.airflowFreedom p.setpoint amb w = .ok perf := by
  unfold internalAddHeat at h
  rw [bind_ok_iff] at h
  obtain ⟨w, hw, h⟩ := h
  rw [bind_ok_iff] at h
  obtain ⟨perf, hp, h⟩ := h
  refine ⟨?_, w, perf, hw, hp⟩
  rintro rfl
  dsimp only at h
  rw [bind_ok_iff] at h
  obtain ⟨d, -, h⟩ := h
  rw [bind_ok_iff] at h
  obtain ⟨q, -, h⟩ := h
  rw [if_pos (by ring)] at h
  cases h

theorem externalAddHeat_spec (fuel : ℕ) (s : SourceCfg n k) (c : CondCfg) (p p' : Plant n)
    (st st' : SourceState) (amb minutes lo : ℚ) (hi : WithTop ℚ)
    (hoi : s.externalOutlet ≤ s.externalInlet)
    (hmp : c.isMultipass = true → 0 < c.mpFlowRate_LPS ∧ hi = ⊤)
    (hsp : c.isMultipass = false → ∀ l ∈ s.shutOff, l.UpperLimit)
    (hout : ∀ water perf, lo ≤ water → (water : WithTop ℚ) ≤ hi →
      c.getPerformance s.airflowFreedom p.setpoint amb water = .ok perf → 0 < perf.outputPower_W)
    (ht : p.tank.Consistent) (hmix : p.tank.doInversionMixing = true)
    (hm : Monotone p.tank.nodeTs) (hlo : ∀ j, lo ≤ p.tank.nodeTs j)
    (hhi : ∀ j, (p.tank.nodeTs j : WithTop ℚ) ≤ hi) (hset : (p.setpoint : WithTop ℚ) ≤ hi)
    (hmin : 0 ≤ minutes) (h : externalAddHeat fuel s c p st amb minutes = .ok (p', st')) :
    AddSpec p p' st st' minutes lo hi := by
  unfold externalAddHeat at h
  rw [bind_ok_iff] at h
  obtain ⟨r, hr, h⟩ := h
  have h := (Except.ok.inj h).symm
  obtain ⟨rfl, rfl⟩ := Prod.mk.inj h
  have hpos : ∀ w perf, p.MayDraw c w → c.getPerformance s.airflowFreedom p.setpoint amb w = .ok perf →
      0 < perf.outputPower_W := by
    intro w perf hw hpf
    obtain ⟨⟨j, hj⟩, hw2⟩ := hw
    refine hout w perf ((hlo j).trans hj) ?_ hpf
    cases hmu : c.isMultipass with
    | true => rw [(hmp hmu).2]; exact le_top
    | false =>
      exact (WithTop.coe_le_coe.mpr ((hw2 hmu).le.trans (min_le_right _ _))).trans hset
  have key : ∀ a : ExtState n, ExtInv s c amb minutes p a → r = extFinish minutes a →
      AddSpec p r.2.1 st { st with
        runtime_min := r.1
        energyInput_kWh := st.energyInput_kWh + Units.W_TO_KW r.2.2.inputPower_W *
          (r.1 / Units.minPerHr)
        energyOutput_kWh := st.energyOutput_kWh + Units.W_TO_KW r.2.2.outputPower_W *
          (r.1 / Units.minPerHr) } minutes lo hi := by
    intro a inv e
    have spec := extFinish_spec s c amb minutes p a inv st
    rw [← e] at spec
    obtain ⟨s1, s2, s3, s4, s5, -⟩ := spec
    refine ⟨s5, s1, s2, s3, ?_, ?_, ?_⟩
    · rw [s4]; exact inv.mono hmix hm
    · intro j; rw [s4]; exact inv.lower lo hlo j
    · intro j
      cases hmu : c.isMultipass with
      | true => rw [(hmp hmu).2]; exact le_top
      | false =>
        obtain ⟨b, hb, hb1, hb2⟩ := withTop_within p.tank.nodeTs hhi p.setpoint hset
        rw [s4]
        have := (inv.bounds hmu lo b (fun j => ⟨hlo j, hb1 j⟩) ((min_le_right _ _).trans hb2) j).2
        exact (WithTop.coe_le_coe.mpr this).trans hb
  unfold addHeatExternal at hr
  have init := ExtInv.init s c amb minutes p hmin
  cases hmu : c.isMultipass with
  | true =>
    simp only [hmu, if_true] at hr
    rw [bind_ok_iff] at hr
    obtain ⟨a, ha, hr⟩ := hr
    exact key a (mpLoop_inv s c amb minutes p ht.volume_pos.ne' ht.nodeVolume_pos ht.nodeCp hoi hmu
      (hmp hmu).1 hpos fuel _ a init ha) (Except.ok.inj hr).symm
  | false =>
    simp only [hmu, Bool.false_eq_true, if_false] at hr
    rw [bind_ok_iff] at hr
    obtain ⟨a, ha, hr⟩ := hr
    have hfr : ∀ q f, s.fractToMeet q = .ok f → 0 ≤ f := fun q f hf =>
      fractToMeetLoop_nonneg q _ 1 f (by norm_num)
        (fun l hl g hg => UpperLimit.fract_nonneg (hsp hmu l hl) q hg) hf
    exact key a (spLoop_inv s c amb minutes p ht.nodeCp_pos ht.volume_pos.ne' hoi hpos hmu
      (fun q f _ _ hf => hfr q f hf) fuel _ a (fun f hf => hfr _ f hf) init ha)
      (Except.ok.inj hr).symm

theorem addHeatKind_spec (m : Libm) (hexp : ∀ x, 0 ≤ m.exp x) (fuel : ℕ) (s : SourceCfg n k)
    (p p' : Plant n) (st st' : SourceState) (x amb minutes lo : ℚ) (hi : WithTop ℚ)
    (hS : s.Sound x amb lo hi)
    (hx : ∀ c, s.kind = .condenser c → p.setpoint = x ∨ p.setpoint = c.maxOutT) (hn : n + 1 ≤ 10000) (ht : p.tank.Consistent)
    (hmix : p.tank.doInversionMixing = true) (hm : Monotone p.tank.nodeTs)
    (hlo : ∀ j, lo ≤ p.tank.nodeTs j) (hhi : ∀ j, (p.tank.nodeTs j : WithTop ℚ) ≤ hi)
    (hset : (p.setpoint : WithTop ℚ) ≤ hi) (hmin : 0 ≤ minutes)
    (h : Sim.addHeatKind m fuel s p st amb minutes = .ok (p', st')) :
    AddSpec p p' st st' minutes lo hi := by
  unfold Sim.addHeatKind at h
  split at h
  · rename_i c hk
    unfold condenserAddHeat at h
    by_cases hc : c.configuration = .external
    · rw [hc] at h
      obtain ⟨h1, h2, h3⟩ := hS.external c hk hc
      exact externalAddHeat_spec fuel s c p p' st st' amb minutes lo hi h1 h2 h3
        (hS.output c hk _ (hx c hk)) ht hmix hm hlo hhi hset hmin h
    · have h : internalAddHeat m.exp s c p st amb minutes = .ok (p', st') := by
        revert h; cases hcc : c.configuration <;> simp_all
      obtain ⟨hd, hshr⟩ := hS.internal c hk hc
      obtain ⟨hm0, w, perf, hw, hpf⟩ := internalAddHeat_inv h
      obtain ⟨b, hb, hb1, -⟩ := withTop_within p.tank.nodeTs hhi p.setpoint hset
      obtain ⟨hw1, hw2⟩ := C22_weighted_average_range s.heatDist hd p.tank.nodeTs w lo b hw
        (fun j => ⟨hlo j, hb1 j⟩)
      have hpos := hS.output c hk _ (hx c hk) w perf hw1 ((WithTop.coe_le_coe.mpr hw2).trans hb) hpf
      obtain ⟨T', st2, cin, cout, he, hrun, -⟩ := internalAddHeat_spec m.exp hexp s c p st amb minutes
        (lt_of_le_of_ne hmin (Ne.symm hm0)) ht.nodeCp_pos hm hd hshr hn hc perf ⟨w, hw, hpf⟩ hpos
      rw [h] at he
      obtain ⟨rfl, rfl⟩ := Prod.mk.inj (Except.ok.inj he)
      exact RunSpec.addSpec hrun ⟨rfl, rfl, rfl, rfl, rfl⟩ hlo hhi
        ((WithTop.coe_le_coe.mpr (min_le_right _ _)).trans hset)
  · rename_i power hk
    obtain ⟨hp, hd⟩ := hS.resistance power hk
    have hm0 := resistanceAddHeat_minutes h
    obtain ⟨T', st2, he, hrun, -⟩ := resistanceAddHeat_spec s power p st minutes hp
      (lt_of_le_of_ne hmin (Ne.symm hm0)) ht.nodeCp_pos hm hd
    rw [h] at he
    obtain ⟨rfl, rfl⟩ := Prod.mk.inj (Except.ok.inj he)
    exact RunSpec.addSpec hrun ⟨rfl, rfl, rfl, rfl, rfl⟩ hlo hhi
      ((WithTop.coe_le_coe.mpr (min_le_right _ _)).trans hset)

/-! ## The state during the heating of a step -/

/-- What holds during the heating of a step that started heating in state `s0`. -/
structure StepInv (s0 s : Sim n k) (lo : ℚ) (hi : WithTop ℚ) : Prop where
  rest : s = { s0 with toPlant := s.toPlant, st := s.st, isHeating := s.isHeating }
  same : s0.toPlant.SameSettings s.toPlant
  energy : s0.tank.nodeCp * ∑ j, s.tank.nodeTs j = s0.tank.nodeCp * ∑ j, s0.tank.nodeTs j +
    3600 * ∑ i, ((s.st i).energyOutput_kWh - (s0.st i).energyOutput_kWh)
  mono : Monotone s.tank.nodeTs
  lower : ∀ j, lo ≤ s.tank.nodeTs j
  upper : ∀ j, (s.tank.nodeTs j : WithTop ℚ) ≤ hi
  run_nonneg : ∀ i, 0 ≤ (s.st i).runtime_min
  run_le : ∀ i, (s.st i).runtime_min ≤ s0.cfg.minutesPerStep

theorem StepInv.cfg {s0 s : Sim n k} {lo : ℚ} {hi : WithTop ℚ} (h : StepInv s0 s lo hi) :
    s.cfg = s0.cfg := by rw [h.rest]

theorem StepInv.ctrl {s0 s s' : Sim n k} {lo : ℚ} {hi : WithTop ℚ} (h : StepInv s0 s lo hi)
    (hc : CtrlEq s s') : StepInv s0 s' lo hi := by
  have hp := hc.plant
  refine ⟨?_, by rw [hp]; exact h.same, ?_, by rw [hp]; exact h.mono, by rw [hp]; exact h.lower,
    by rw [hp]; exact h.upper, fun i => by rw [hc.runtime]; exact h.run_nonneg i,
    fun i => by rw [hc.runtime]; exact h.run_le i⟩
  · rw [hc.rest, h.rest]
  · simp only [hp, hc.output]; exact h.energy

theorem sum_update_sub {k : ℕ} (f : SourceState → ℚ) (st st0 : Fin k → SourceState) (j : Fin k)
    (x : SourceState) :
    ∑ i, (f (Function.update st j x i) - f (st0 i)) =
      ∑ i, (f (st i) - f (st0 i)) + (f x - f (st j)) := by
  have h : ∀ i, f (Function.update st j x i) - f (st0 i) =
      (f (st i) - f (st0 i)) + if i = j then f x - f (st j) else 0 := by
    intro i
    by_cases hi : i = j
    · subst hi; simp
    · simp [hi]
  simp only [h, Finset.sum_add_distrib, Finset.sum_ite_eq', Finset.mem_univ, if_true]

theorem addHeat_spec {m : Libm} {fuel : ℕ} {s s' : Sim n k} {j : Fin k} {amb minutes : ℚ}
    (h : s.addHeat m fuel j amb minutes = .ok s') :
    Sim.addHeatKind m fuel (s.cfg.src j) s.toPlant (s.st j) amb minutes =
      .ok (s'.toPlant, s'.st j) ∧
    s' = { s with toPlant := s'.toPlant, st := Function.update s.st j (s'.st j) } := by
  unfold Sim.addHeat at h
  rw [bind_ok_iff] at h
  obtain ⟨r, hr, h⟩ := h
  rw [← Except.ok.inj h]
  simp [hr]

/-- Running a heat source, possibly with the setpoint lowered meanwhile, keeps the invariant. -/
theorem StepInv.heat {m : Libm} (hexp : ∀ x, 0 ≤ m.exp x) {fuel : ℕ} {s0 s s' : Sim n k} {lo : ℚ}
    {hi : WithTop ℚ} {j : Fin k} {amb minutes : ℚ}
    (hS : (s0.cfg.src j).Sound s0.setpoint amb lo hi) (hn : n + 1 ≤ 10000) (ht : s0.tank.Consistent)
    (hmix : s0.tank.doInversionMixing = true) (hset : (s0.setpoint : WithTop ℚ) ≤ hi)
    (habs : Sim.noSetpoint < s0.setpoint)
    (inv : StepInv s0 s lo hi) (hmin : 0 ≤ minutes) (hle : minutes ≤ s0.cfg.minutesPerStep)
    (h : s.addHeatParent m fuel j amb minutes = .ok s') :
    StepInv s0 s' lo hi ∧ 0 ≤ (s'.st j).runtime_min ∧ (s'.st j).runtime_min ≤ minutes := by
  obtain ⟨q1, q2, q3, q4, q5⟩ := inv.same
  have ht' : s.tank.Consistent := by
    rw [q1]; exact ⟨ht.volume_pos, ht.nodeVolume, ht.nodeCp⟩
  have hmix' : s.tank.doInversionMixing = true := by rw [q1]; exact hmix
  have key : ∀ (p : Plant n) (x : ℚ) (st' : SourceState),
      (x : WithTop ℚ) ≤ hi →
      (∀ c, (s.cfg.src j).kind = .condenser c → x = s0.setpoint ∨ x = c.maxOutT) →
      Sim.addHeatKind m fuel (s.cfg.src j) { s.toPlant with setpoint := x } (s.st j) amb minutes =
        .ok (p, st') →
      StepInv s0
        { s with
          toPlant := { p with setpoint := s.setpoint }
          st := Function.update s.st j st' } lo hi ∧ 0 ≤ st'.runtime_min ∧
        st'.runtime_min ≤ minutes ∧ p.setpoint = x := by
    intro p x st' hx hxc hk
    rw [inv.cfg] at hk hxc
    have sp := addHeatKind_spec m hexp fuel (s0.cfg.src j) { s.toPlant with setpoint := x } p
      (s.st j) st' s0.setpoint amb minutes lo hi hS hxc hn ht' hmix' inv.mono inv.lower inv.upper hx hmin hk
    obtain ⟨r1, r2, r3, r4, r5⟩ := sp.same
    refine ⟨⟨?_, ?_, ?_, sp.mono, sp.lower, sp.upper, ?_, ?_⟩, sp.nonneg, sp.le, r2⟩
    · rw [inv.rest]
    · refine ⟨?_, q2, r3.trans q3, r4.trans q4, r5.trans q5⟩
      change p.tank = _
      rw [r1]
      change ({ s.tank with nodeTs := p.tank.nodeTs } : Tank n) = _
      rw [q1]
    · have e := sp.energy
      change s.tank.nodeCp * _ = s.tank.nodeCp * ∑ j, s.tank.nodeTs j + _ at e
      have hcp : s.tank.nodeCp = s0.tank.nodeCp := by rw [q1]
      rw [hcp, inv.energy] at e
      rw [sum_update_sub SourceState.energyOutput_kWh]
      change s0.tank.nodeCp * ∑ j, p.tank.nodeTs j = _
      linarith
    · intro i
      by_cases hij : i = j
      · subst hij; simpa using sp.nonneg
      · simpa [hij] using inv.run_nonneg i
    · intro i
      by_cases hij : i = j
      · subst hij; simpa using sp.le.trans hle
      · simpa [hij] using inv.run_le i
  have hsx : (s.setpoint : WithTop ℚ) ≤ hi := by rw [q2]; exact hset
  rcases addHeatParent_cases h with h | ⟨c, s2, hc, ha, hm, -, h2, ⟨-, e⟩ | ⟨hno, -⟩⟩
  · obtain ⟨hk, e⟩ := addHeat_spec h
    obtain ⟨k1, k2, k3, k4⟩ := key s'.toPlant s.setpoint (s'.st j) hsx
      (fun _ _ => .inl q2) hk
    refine ⟨?_, k2, k3⟩
    rw [e]
    have : ({ s'.toPlant with setpoint := s.setpoint } : Plant n) = s'.toPlant := by rw [← k4]
    rw [this] at k1
    simpa using k1
  · obtain ⟨hk, e2⟩ := addHeat_spec h2
    obtain ⟨k1, k2, k3, k4⟩ := key s2.toPlant c.maxOutT (s2.st j)
      ((WithTop.coe_le_coe.mpr hm).trans hsx)
      (fun c' hc' => .inr (by rw [hc] at hc'; cases hc'; rfl)) hk
    subst e
    refine ⟨?_, k2, k3⟩
    rw [e2]
    simpa using k1
  · exact absurd (by rw [q2]; exact habs) hno

theorem StepInv.init (s0 : Sim n k) (lo : ℚ) (hi : WithTop ℚ) (hm : Monotone s0.tank.nodeTs)
    (hlo : ∀ j, lo ≤ s0.tank.nodeTs j) (hhi : ∀ j, (s0.tank.nodeTs j : WithTop ℚ) ≤ hi)
    (hrun : ∀ i, (s0.st i).runtime_min = 0) (hstep : 0 ≤ s0.cfg.minutesPerStep) :
    StepInv s0 s0 lo hi :=
  ⟨rfl, ⟨rfl, rfl, rfl, rfl, rfl⟩, by simp, hm, hlo, hhi, fun i => (hrun i).ge,
    fun i => (hrun i).trans_le hstep⟩

theorem StepInv.heatInduction {m : Libm} (hexp : ∀ x, 0 ≤ m.exp x) (fuel : ℕ) (dr : DR) (amb : ℚ)
    (s0 : Sim n k) (lo : ℚ) (hi : WithTop ℚ)
    (hS : ∀ j, (s0.cfg.src j).Sound s0.setpoint amb lo hi) (hn : n + 1 ≤ 10000) (ht : s0.tank.Consistent)
    (hmix : s0.tank.doInversionMixing = true) (hset : (s0.setpoint : WithTop ℚ) ≤ hi)
    (habs : Sim.noSetpoint < s0.setpoint) :
    HeatInduction m fuel dr amb s0.cfg (fun _ => True) (fun s => StepInv s0 s lo hi)
      (fun x => 0 ≤ x ∧ x ≤ s0.cfg.minutesPerStep) where
  fixed _ inv := inv.cfg
  ctrl _ _ hc inv := inv.ctrl hc
  heat s s' j minutes _ inv hq _ h := by
    obtain ⟨h1, h2, h3⟩ := StepInv.heat hexp (hS j) hn ht hmix hset habs inv hq.1 hq.2 h
    exact ⟨h1, fun hlt => ⟨by linarith, by linarith [hq.2]⟩⟩
  back s b minutes inv hq h := ⟨h, by linarith [inv.run_nonneg b, hq.2]⟩

end HPWH
