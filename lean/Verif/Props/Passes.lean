import Verif.Lemmas.Passes
import Verif.Lemmas.OneStep
import Verif.Props.External
import Verif.Props.Step

/-! # C103: what is reported of external heating describes the water that was moved -/

namespace HPWH

open Spec

variable {n k : ℕ}

/-- **C103.** Single-pass external heating as in C16 that lasted some time, in a plant whose report of condenser
temperatures starts at zero (as at the start of a step). Water was moved in portions, each with the heat that accounts
for its rise to the lower of setpoint and condenser maximum, each taken at no less than the coldest temperature of the
tank; the reported volume, run time and output energy are the sums over the portions, the reported condenser
temperatures are their means over time. -/
theorem C103_single_pass (fuel : ℕ) (s : SourceCfg n k) (c : CondCfg) (p p' : Plant n)
    (st st' : SourceState) (externalT minutes : ℚ) (hmin : 0 ≤ minutes) (ht : p.tank.Consistent)
    (hoi : s.externalOutlet ≤ s.externalInlet) (hsp : c.isMultipass = false)
    (hperf : ∀ water perf, p.MayDraw c water →
      c.getPerformance s.airflowFreedom p.setpoint externalT water = .ok perf → 0 < perf.outputPower_W)
    (hfrac : ∀ q f, p.SameSettings q → (q = p ∨ s.shutsOff q = .ok false) →
      s.fractToMeet q = .ok f → 0 ≤ f)
    (hin : p.condenserInlet = 0) (hout : p.condenserOutlet = 0)
    (h : externalAddHeat fuel s c p st externalT minutes = .ok (p', st')) (hrun : 0 < st'.runtime_min) :
    ∃ qs : List Portion,
      (∀ q ∈ qs, q.Sound ∧ q.outletT = min c.maxSetpoint p.setpoint ∧
        ∀ lo : ℚ, (∀ j, lo ≤ p.tank.nodeTs j) → lo ≤ q.inletT) ∧
      Describes (p'.externalVolumeHeated - p.externalVolumeHeated) st'.runtime_min
        (3600 * (st'.energyOutput_kWh - st.energyOutput_kWh)) p'.condenserInlet p'.condenserOutlet qs := by
  obtain ⟨qs, h1, h2⟩ := Records.describes hin hout (fun a ha => by
    simp only [hsp, Bool.false_eq_true, if_false] at ha
    exact spLoop_records s c externalT minutes p ht hoi hperf hsp
      (fun q f h1 h2 h3 => hfrac q f h1 (Or.inr h2) h3) fuel _ a
      (fun f hf => hfrac p f (.refl p) (Or.inl rfl) hf) (.init s c externalT minutes p hmin)
      ⟨[], .init c minutes p⟩ ha) h hrun
  exact ⟨qs, fun q hq => ⟨(h1 q hq).sound, (h1 q hq).single hsp, (h1 q hq).coldest⟩, h2⟩

/-- **C103.** Multi-pass external heating as in C17 that lasted some time: the same, with every portion flowing at the
flow rate of the condenser. -/
theorem C103_multi_pass (fuel : ℕ) (s : SourceCfg n k) (c : CondCfg) (p p' : Plant n)
    (st st' : SourceState) (externalT minutes : ℚ) (hmin : 0 ≤ minutes) (ht : p.tank.Consistent)
    (hoi : s.externalOutlet ≤ s.externalInlet) (hmp : c.isMultipass = true) (hflow : 0 < c.mpFlowRate_LPS)
    (hperf : ∀ water perf, p.MayDraw c water →
      c.getPerformance s.airflowFreedom p.setpoint externalT water = .ok perf → 0 < perf.outputPower_W)
    (hin : p.condenserInlet = 0) (hout : p.condenserOutlet = 0)
    (h : externalAddHeat fuel s c p st externalT minutes = .ok (p', st')) (hrun : 0 < st'.runtime_min) :
    ∃ qs : List Portion,
      (∀ q ∈ qs, q.Sound ∧ q.volume_L = 60 * c.mpFlowRate_LPS * q.minutes ∧
        ∀ lo : ℚ, (∀ j, lo ≤ p.tank.nodeTs j) → lo ≤ q.inletT) ∧
      Describes (p'.externalVolumeHeated - p.externalVolumeHeated) st'.runtime_min
        (3600 * (st'.energyOutput_kWh - st.energyOutput_kWh)) p'.condenserInlet p'.condenserOutlet qs := by
  obtain ⟨qs, h1, h2⟩ := Records.describes hin hout (fun a ha => by
    simp only [hmp, if_true] at ha
    exact mpLoop_records s c externalT minutes p ht hoi hmp hflow hperf fuel _ a
      (.init s c externalT minutes p hmin) ⟨[], .init c minutes p⟩ ha) h hrun
  exact ⟨qs, fun q hq => ⟨(h1 q hq).sound, (h1 q hq).multi hmp, (h1 q hq).coldest⟩, h2⟩

/-! ## What follows for the report -/

theorem total_congr {f g : Portion → ℚ} : ∀ {qs : List Portion}, (∀ q ∈ qs, f q = g q) → total f qs = total g qs
  | [], _ => rfl
  | q :: qs, h => by
    have := total_congr (qs := qs) fun x hx => h x (List.mem_cons_of_mem _ hx)
    unfold total at this ⊢
    rw [List.map_cons, List.map_cons, List.sum_cons, List.sum_cons, this, h q List.mem_cons_self]

theorem total_mul (a : ℚ) (f : Portion → ℚ) (qs : List Portion) : total (fun q => a * f q) qs = a * total f qs := by
  unfold total
  rw [← List.sum_map_mul_left]

theorem total_sub (f g : Portion → ℚ) : ∀ qs : List Portion, total (fun q => f q - g q) qs = total f qs - total g qs
  | [] => by simp [total]
  | q :: qs => by
    have := total_sub f g qs
    unfold total at this ⊢
    rw [List.map_cons, List.map_cons, List.map_cons, List.sum_cons, List.sum_cons, List.sum_cons, this]
    ring

theorem total_le {f g : Portion → ℚ} : ∀ {qs : List Portion}, (∀ q ∈ qs, f q ≤ g q) → total f qs ≤ total g qs
  | [], _ => le_rfl
  | q :: qs, h => by
    have := total_le (qs := qs) fun x hx => h x (List.mem_cons_of_mem _ hx)
    have hq := h q List.mem_cons_self
    unfold total at this ⊢
    rw [List.map_cons, List.map_cons, List.sum_cons, List.sum_cons]
    linarith

theorem total_pos {f : Portion → ℚ} {qs : List Portion} (h : 0 < total f qs) :
    ∃ q ∈ qs, 0 < f q := by
  by_contra hc
  push Not at hc
  have : total f qs ≤ total (fun _ => 0) qs := total_le hc
  simp [total] at this
  unfold total at h
  linarith

theorem total_lt {f g : Portion → ℚ} : ∀ {qs : List Portion}, (∀ q ∈ qs, f q ≤ g q) → (∃ q ∈ qs, f q < g q) →
    total f qs < total g qs
  | [], _, h => by simp at h
  | q :: qs, h, ⟨x, hx, hlt⟩ => by
    have hq := h q List.mem_cons_self
    have hle := total_le (qs := qs) fun x hx => h x (List.mem_cons_of_mem _ hx)
    rcases List.mem_cons.mp hx with rfl | hx
    · unfold total at hle ⊢
      rw [List.map_cons, List.map_cons, List.sum_cons, List.sum_cons]
      linarith
    · have := total_lt (qs := qs) (fun x hx => h x (List.mem_cons_of_mem _ hx)) ⟨x, hx, hlt⟩
      unfold total at this ⊢
      rw [List.map_cons, List.map_cons, List.sum_cons, List.sum_cons]
      linarith

/-- **C103**, what a report of sound portions allows to conclude: the water came out warmer than it went in; if all
portions came out at one temperature that is the reported one; and if all flowed at one rate, the reported volume is rate
times run time and the reported heat is exactly what the reported volume takes to warm up between the reported
temperatures. -/
theorem C103_reading {volume minutes heat inletT outletT : ℚ} {qs : List Portion} (hq : ∀ q ∈ qs, q.Sound)
    (h : Describes volume minutes heat inletT outletT qs) (hmin : 0 < minutes) :
    inletT < outletT ∧
    (∀ x, (∀ q ∈ qs, q.outletT = x) → outletT = x) ∧
    (∀ x, (∀ q ∈ qs, x ≤ q.inletT) → x ≤ inletT) ∧
    (∀ rate, (∀ q ∈ qs, q.volume_L = rate * q.minutes) →
      volume = rate * minutes ∧ heat = waterHeat volume outletT - waterHeat volume inletT) := by
  refine ⟨?_, fun x hx => ?_, fun x hx => ?_, fun rate hr => ?_⟩
  · have : total (fun q => q.inletT * q.minutes) qs < total (fun q => q.outletT * q.minutes) qs := by
      obtain ⟨q, hm, hpos⟩ := total_pos (by rw [← h.time]; exact hmin)
      refine total_lt (fun q hm => mul_le_mul_of_nonneg_right (hq q hm).rise.le (hq q hm).minutes) ⟨q, hm, ?_⟩
      exact mul_lt_mul_of_pos_right (hq q hm).rise hpos
    rw [← h.inlet, ← h.outlet] at this
    exact lt_of_mul_lt_mul_right this hmin.le
  · have h1 : total (fun q => q.outletT * q.minutes) qs = x * total (·.minutes) qs := by
      rw [← total_mul]
      exact total_congr fun q hm => by rw [hx q hm]
    rw [← h.outlet, ← h.time] at h1
    exact mul_right_cancel₀ hmin.ne' h1
  · have h1 : x * total (·.minutes) qs ≤ total (fun q => q.inletT * q.minutes) qs := by
      rw [← total_mul]
      exact total_le fun q hm => mul_le_mul_of_nonneg_right (hx q hm) (hq q hm).minutes
    rw [← h.inlet, ← h.time] at h1
    exact le_of_mul_le_mul_right h1 hmin
  · have hv : volume = rate * minutes := by
      rw [h.volume, h.time, ← total_mul]
      exact total_congr hr
    refine ⟨hv, ?_⟩
    have h1 : total (·.heat_kJ) qs =
        (4180 / 1000 * (995 / 1000) * rate) * (outletT * minutes - inletT * minutes) := by
      rw [h.outlet, h.inlet, ← total_sub, ← total_mul]
      refine total_congr fun q hm => ?_
      rw [(hq q hm).heat, hr q hm]
      unfold waterHeat
      ring
    rw [h.heat, h1, hv]
    unfold waterHeat
    ring

/-- **C103**, the report of multi-pass heating checks out: reported volume = flow rate × run time, and the output energy
is what that volume takes to warm up from the reported inlet to the reported outlet temperature. -/
theorem C103_multi_pass_adds_up (fuel : ℕ) (s : SourceCfg n k) (c : CondCfg) (p p' : Plant n)
    (st st' : SourceState) (externalT minutes : ℚ) (hmin : 0 ≤ minutes) (ht : p.tank.Consistent)
    (hoi : s.externalOutlet ≤ s.externalInlet) (hmp : c.isMultipass = true) (hflow : 0 < c.mpFlowRate_LPS)
    (hperf : ∀ water perf, p.MayDraw c water →
      c.getPerformance s.airflowFreedom p.setpoint externalT water = .ok perf → 0 < perf.outputPower_W)
    (hin : p.condenserInlet = 0) (hout : p.condenserOutlet = 0) (hvol : p.externalVolumeHeated = 0)
    (h : externalAddHeat fuel s c p st externalT minutes = .ok (p', st')) (hrun : 0 < st'.runtime_min) :
    p'.externalVolumeHeated = 60 * c.mpFlowRate_LPS * st'.runtime_min ∧
    p'.condenserInlet < p'.condenserOutlet ∧
    3600 * (st'.energyOutput_kWh - st.energyOutput_kWh) =
      waterHeat p'.externalVolumeHeated p'.condenserOutlet - waterHeat p'.externalVolumeHeated p'.condenserInlet := by
  obtain ⟨qs, h1, h2⟩ := C103_multi_pass fuel s c p p' st st' externalT minutes hmin ht hoi hmp hflow hperf hin hout h hrun
  rw [hvol, sub_zero] at h2
  obtain ⟨a1, -, -, a4⟩ := C103_reading (fun q hq => (h1 q hq).1) h2 hrun
  obtain ⟨b1, b2⟩ := a4 (60 * c.mpFlowRate_LPS) fun q hq => (h1 q hq).2.1
  exact ⟨b1, a1, b2⟩

/-- **C103**, the report of single-pass heating: the reported outlet temperature is the lower of setpoint and condenser
maximum, and the reported inlet temperature is below it and not below the coldest temperature of the tank. -/
theorem C103_single_pass_temperatures (fuel : ℕ) (s : SourceCfg n k) (c : CondCfg) (p p' : Plant n)
    (st st' : SourceState) (externalT minutes : ℚ) (hmin : 0 ≤ minutes) (ht : p.tank.Consistent)
    (hoi : s.externalOutlet ≤ s.externalInlet) (hsp : c.isMultipass = false)
    (hperf : ∀ water perf, p.MayDraw c water →
      c.getPerformance s.airflowFreedom p.setpoint externalT water = .ok perf → 0 < perf.outputPower_W)
    (hfrac : ∀ q f, p.SameSettings q → (q = p ∨ s.shutsOff q = .ok false) →
      s.fractToMeet q = .ok f → 0 ≤ f)
    (hin : p.condenserInlet = 0) (hout : p.condenserOutlet = 0)
    (h : externalAddHeat fuel s c p st externalT minutes = .ok (p', st')) (hrun : 0 < st'.runtime_min) :
    p'.condenserOutlet = min c.maxSetpoint p.setpoint ∧ p'.condenserInlet < p'.condenserOutlet ∧
    ∀ lo : ℚ, (∀ j, lo ≤ p.tank.nodeTs j) → lo ≤ p'.condenserInlet := by
  obtain ⟨qs, h1, h2⟩ := C103_single_pass fuel s c p p' st st' externalT minutes hmin ht hoi hsp hperf hfrac hin hout h hrun
  obtain ⟨a1, a2, a3, -⟩ := C103_reading (fun q hq => (h1 q hq).1) h2 hrun
  exact ⟨a2 _ fun q hq => (h1 q hq).2.1, a1, fun lo hlo => a3 lo fun q hq => (h1 q hq).2.2 lo hlo⟩

/-- The conditions of both are met, with heat given in several portions. -/
example : samplePlant.tank.Consistent ∧ sampleExt.externalOutlet ≤ sampleExt.externalInlet ∧
    (∀ l ∈ sampleExt.shutOff, l.ShutsOffAbove samplePlant) ∧ sampleExt.shutsOff samplePlant = .ok false ∧
    samplePlant.condenserInlet = 0 ∧ samplePlant.condenserOutlet = 0 ∧ 0 < sampleMpCond.mpFlowRate_LPS ∧
    (∃ r, externalAddHeat 10 sampleExt sampleExtCond samplePlant sampleState 20 10 = .ok r ∧ 0 < r.2.runtime_min ∧
      samplePlant.tank.nodeVolume_L < r.1.externalVolumeHeated ∧ r.1.condenserOutlet = 55) ∧
    (∃ r, externalAddHeat 40 sampleExt sampleMpCond samplePlant sampleState 20 10 = .ok r ∧ 0 < r.2.runtime_min ∧
      samplePlant.tank.nodeVolume_L < r.1.externalVolumeHeated) := by
  refine ⟨warmTank_wellFormed.toConsistent, by decide +kernel, fun l hl => ?_, by decide +kernel, rfl, rfl,
    by decide +kernel, by decide +kernel, by decide +kernel⟩
  simp [sampleExt] at hl
  subst hl
  exact ⟨rfl, trivial⟩

/-- **C103**, what the report of single-pass heating does not allow: the means of the temperatures are over time, not
over volume, so the reported output energy differs from what the reported volume takes to warm up between the reported
temperatures. -/
theorem C103_single_pass_does_not_add_up :
    ∃ r, externalAddHeat 10 sampleExt sampleExtCond samplePlant sampleState 20 10 = .ok r ∧ 0 < r.2.runtime_min ∧
      3600 * (r.2.energyOutput_kWh - sampleState.energyOutput_kWh) ≠
        waterHeat r.1.externalVolumeHeated r.1.condenserOutlet - waterHeat r.1.externalVolumeHeated r.1.condenserInlet := by
  decide +kernel

/-! ## A step of a water heater with one external heat pump -/

/-- The setpoint an external condenser works with: lowered to what it can reach in cold air. -/
def Sim.workingSetpoint (s : Sim n k) (c : CondCfg) (airT : ℚ) : ℚ :=
  if airT ≤ c.maxOutAirT ∧ c.maxOutT ≤ s.setpoint then c.maxOutT else s.setpoint

/-- In a step of a water heater with one heat source, which has no backup, the source runs at most once. -/
theorem control_once {m : Libm} {fuel : ℕ} {dr : DR} {amb : ℚ} {s s' : Sim n 1} (hb : (s.cfg.src 0).backup = none)
    (h : Sim.control m fuel dr amb s = .ok s') :
    CtrlEq s s' ∨ ∃ a b, CtrlEq s a ∧ a.addHeatParent m fuel 0 amb s.cfg.minutesPerStep = .ok b ∧ CtrlEq b s' := by
  unfold Sim.control at h
  rw [bind_ok_iff] at h
  obtain ⟨s1, h1, h⟩ := h
  have hlast : CtrlEq s1 s' := by
    rw [← Except.ok.inj h]
    split_ifs
    · exact .heating s1 false
    · exact .refl s1
  suffices hs : CtrlEq s s1 ∨ ∃ a b, CtrlEq s a ∧ a.addHeatParent m fuel 0 amb s.cfg.minutesPerStep = .ok b ∧ CtrlEq b s1 by
    rcases hs with hs | ⟨a, b, c1, c2, c3⟩
    · exact .inl (hs.trans hlast)
    · exact .inr ⟨a, b, c1, c2, c3.trans hlast⟩
  unfold Sim.normalControl at h1
  by_cases hd : (dr.loc && dr.lor) = true
  · rw [if_pos hd] at h1
    rw [← Except.ok.inj h1]
    exact .inl (.turnAllOff s)
  rw [if_neg hd, bind_ok_iff] at h1
  obtain ⟨a, ha, h1⟩ := h1
  rw [bind_ok_iff] at h1
  obtain ⟨b, hb1, h1⟩ := h1
  have cb := (CtrlEq.topOff ha).trans (CtrlEq.chooseLoop hb1)
  have e : List.finRange 1 = [0] := by decide
  rw [e, Sim.heatSrcLoop, bind_ok_iff] at h1
  obtain ⟨r, hr, h1⟩ := h1
  rw [Sim.heatSrcLoop] at h1
  have h1 := Except.ok.inj h1
  subst h1
  unfold Sim.heatBody at hr
  rw [bind_ok_iff] at hr
  obtain ⟨b1, hl, hr⟩ := hr
  have cb1 := cb.trans (CtrlEq.applyLocks hl)
  split_ifs at hr with hon
  · rw [bind_ok_iff] at hr
    obtain ⟨pick, hp, hr⟩ := hr
    have cp := cb1.trans (CtrlEq.pickSource hp)
    split at hr
    · rw [← Except.ok.inj hr]; exact .inl cp
    · rename_i j hj
      obtain rfl : j = 0 := Subsingleton.elim _ _
      unfold Sim.runSource at hr
      rw [bind_ok_iff] at hr
      obtain ⟨s2, h2, hr⟩ := hr
      have hcfg2 : s2.cfg = s.cfg := (addHeatParent_cfg h2).trans cp.cfg
      refine .inr ⟨pick.1, s2, cp, h2, ?_⟩
      split_ifs at hr with hearly
      · rw [bind_ok_iff] at hr
        obtain ⟨s3, h3, hr⟩ := hr
        rw [← Except.ok.inj hr]
        unfold Sim.afterEarly at h3
        dsimp only at h3
        rw [bind_ok_iff] at h3
        obtain ⟨fo, -, h3⟩ := h3
        split at h3
        · exact (CtrlEq.disengage s2 0).trans (CtrlEq.engage h3)
        · rw [bind_ok_iff] at h3
          obtain ⟨mx, -, h3⟩ := h3
          rw [hcfg2, hb] at h3
          have : s2.disengage 0 = s3 := by
            cases mx <;> exact Except.ok.inj h3
          rw [← this]
          exact CtrlEq.disengage s2 0
      · rw [← Except.ok.inj hr]
        exact .refl s2
  · rw [← Except.ok.inj hr]; exact .inl cb1

/-- **C103**, for a step of a water heater whose only heat source is an external heat pump, with a tank whose inlets are
in range, of positive output power at every temperature of the water, with a positive flow rate (multi-pass) or with
upper temperature limits as shut-off logics (single-pass), and without extra heat. If the heat pump ran: what is
reported of the step describes portions of water that were heated, all to the working setpoint (single-pass) or all at
the flow rate of the condenser (multi-pass). If the step did not heat, nothing is reported. -/
theorem C103_step (m : Libm) (fuel : ℕ) (s s' : Sim n 1) (u : Sim.StepInput) (c : CondCfg)
    (hk : (s.cfg.src 0).kind = .condenser c) (hext : c.configuration = .external)
    (hback : (s.cfg.src 0).backup = none) (hoi : (s.cfg.src 0).externalOutlet ≤ (s.cfg.src 0).externalInlet)
    (hw : s.tank.WellFormed) (hstep : 0 ≤ s.cfg.minutesPerStep) (hd : 0 ≤ u.draw_L) (hextra : u.extraHeat_W = [])
    (hperf : ∀ water perf, c.getPerformance (s.cfg.src 0).airflowFreedom (s.workingSetpoint c (s.sourceAirT u))
      (s.sourceAirT u) water = .ok perf → 0 < perf.outputPower_W)
    (hmulti : c.isMultipass = true → 0 < c.mpFlowRate_LPS)
    (hsingle : c.isMultipass = false → ∀ l ∈ (s.cfg.src 0).shutOff, l.UpperLimit)
    (h : Sim.runOneStep m fuel s u = .ok s') :
    ((s'.st 0).runtime_min = 0 ∧ (s'.st 0).energyOutput_kWh = 0 ∧ s'.externalVolumeHeated = 0 ∧ s'.condenserInlet = 0 ∧
      s'.condenserOutlet = 0) ∨
    (0 < (s'.st 0).runtime_min → ∃ qs : List Portion,
      (∀ q ∈ qs, q.Sound ∧
        (c.isMultipass = false → q.outletT = min c.maxSetpoint (s.workingSetpoint c (s.sourceAirT u))) ∧
        (c.isMultipass = true → q.volume_L = 60 * c.mpFlowRate_LPS * q.minutes)) ∧
      Describes s'.externalVolumeHeated (s'.st 0).runtime_min (3600 * (s'.st 0).energyOutput_kWh)
        s'.condenserInlet s'.condenserOutlet qs) := by
  obtain ⟨-, s0, s1, s2, h0, h1, h2, rfl⟩ := runOneStep_ok h
  obtain ⟨g1, -, -, -, -, g6, -⟩ := finish_facts s2 u.tankAmbient u.dr
  have e2 : s2 = s1 := (extraStep_frame h2).2.2.2.2.2.2.2 hextra
  subst e2
  obtain ⟨t, hdr, hsoc⟩ := h0.plant
  have ep := updateSoC_eq hsoc
  have hci : s0.condenserInlet = 0 := by rw [ep]; rfl
  have hco : s0.condenserOutlet = 0 := by rw [ep]; rfl
  have hvo : s0.externalVolumeHeated = 0 := by rw [ep]; rfl
  have hst := h0.st 0
  have hcons : s0.tank.Consistent := by
    have := (updateNodes_facts { s.tank with outletT := 0, standbyLosses_kJ := 0 } _
      (hw.of_cfg rfl) _ _ _ _ _ _ _ hd h0.drawn).1
    exact (hw.of_cfg this).toConsistent
  rw [(g6 0).1, (g6 0).2.1, show (((s2.trackLocation u.tankAmbient).settleOutputs).updateTimer u.dr).externalVolumeHeated =
    s2.externalVolumeHeated by rw [g1], show (((s2.trackLocation u.tankAmbient).settleOutputs).updateTimer u.dr).condenserInlet =
    s2.condenserInlet by rw [g1], show (((s2.trackLocation u.tankAmbient).settleOutputs).updateTimer u.dr).condenserOutlet =
    s2.condenserOutlet by rw [g1]]
  rcases control_once (by rw [h0.cfg]; exact hback) h1 with hc | ⟨a, b, ca, hab, cb⟩
  · left
    rw [hc.runtime, hc.output, hc.plant, hst]
    exact ⟨rfl, rfl, hvo, hci, hco⟩
  · right
    intro hrun
    rw [cb.runtime] at hrun ⊢
    rw [cb.output, cb.plant]
    have hacfg : a.cfg = s.cfg := ca.cfg.trans h0.cfg
    have hapl : a.toPlant = s0.toPlant := ca.plant
    have haset : a.setpoint = s.setpoint := by rw [hapl]; exact h0.setpoint
    -- one call of `externalAddHeat`
    have key : ∀ (p : Plant n) (p' : Plant n) (st' : SourceState), p = { s0.toPlant with setpoint := p.setpoint } →
        p.setpoint = s.workingSetpoint c (s.sourceAirT u) →
        Sim.addHeatKind m fuel (s.cfg.src 0) p (a.st 0) (s.sourceAirT u) s0.cfg.minutesPerStep = .ok (p', st') →
        0 < st'.runtime_min →
        ∃ qs : List Portion,
        (∀ q ∈ qs, q.Sound ∧
          (c.isMultipass = false → q.outletT = min c.maxSetpoint (s.workingSetpoint c (s.sourceAirT u))) ∧
          (c.isMultipass = true → q.volume_L = 60 * c.mpFlowRate_LPS * q.minutes)) ∧
        Describes p'.externalVolumeHeated st'.runtime_min (3600 * st'.energyOutput_kWh)
          p'.condenserInlet p'.condenserOutlet qs := by
      intro p p' st' hp hset hk' hrun'
      unfold Sim.addHeatKind at hk'
      rw [hk] at hk'
      dsimp only at hk'
      rw [condenserAddHeat_external m.exp fuel _ c hext, h0.cfg] at hk'
      have p1 : p.condenserInlet = 0 := by rw [hp]; exact hci
      have p2 : p.condenserOutlet = 0 := by rw [hp]; exact hco
      have p3 : p.externalVolumeHeated = 0 := by rw [hp]; exact hvo
      have p4 : p.tank.Consistent := by rw [hp]; exact hcons
      have p5 : (a.st 0).energyOutput_kWh = 0 := by rw [ca.output, hst]; rfl
      have hperf' : ∀ water perf, p.MayDraw c water → c.getPerformance (s.cfg.src 0).airflowFreedom p.setpoint
          (s.sourceAirT u) water = .ok perf → 0 < perf.outputPower_W := fun w perf _ hp' => by
        rw [hset] at hp'; exact hperf w perf hp'
      cases hm : c.isMultipass with
      | false =>
        obtain ⟨qs, q1, q2⟩ := C103_single_pass fuel _ c p p' _ st' _ _ hstep p4 hoi hm hperf'
          (fun q f hq hoff hf => C16_upper_limits_qualify _ p
            (fun l hl => by
              obtain ⟨u1, x, d, u2⟩ := hsingle hm l hl
              exact ⟨u1, by rw [u2]; trivial⟩)
            (.inr fun l hl => (hsingle hm l hl).2) q f hq hoff hf) p1 p2 hk' hrun'
        rw [p3, p5, sub_zero, sub_zero] at q2
        exact ⟨qs, fun q hq => ⟨(q1 q hq).1, fun _ => by rw [← hset]; exact (q1 q hq).2.1, fun hc => by cases hc⟩, q2⟩
      | true =>
        obtain ⟨qs, q1, q2⟩ := C103_multi_pass fuel _ c p p' _ st' _ _ hstep p4 hoi hm (hmulti hm) hperf' p1 p2 hk' hrun'
        rw [p3, p5, sub_zero, sub_zero] at q2
        exact ⟨qs, fun q hq => ⟨(q1 q hq).1, fun hc => (by cases hc), fun _ => (q1 q hq).2.1⟩, q2⟩
    unfold Sim.addHeatParent at hab
    rw [hacfg, hk] at hab
    dsimp only at hab
    by_cases hm : s.sourceAirT u ≤ c.maxOutAirT ∧ a.setpoint ≥ c.maxOutT
    · rw [if_pos hm, bind_ok_iff] at hab
      obtain ⟨a1, ha1, hab⟩ := hab
      have ea1 := setSetpoint_eq ha1
      subst ea1
      rw [bind_ok_iff] at hab
      obtain ⟨b1, hb1, hab⟩ := hab
      obtain ⟨k1, -⟩ := addHeat_spec hb1
      have hb : b.st = b1.st ∧ b.externalVolumeHeated = b1.externalVolumeHeated ∧
          b.condenserInlet = b1.condenserInlet ∧ b.condenserOutlet = b1.condenserOutlet := by
        split_ifs at hab
        · rw [setSetpoint_eq hab]; exact ⟨rfl, rfl, rfl, rfl⟩
        · rw [← Except.ok.inj hab]; exact ⟨rfl, rfl, rfl, rfl⟩
      rw [hb.1] at hrun ⊢
      rw [hb.2.1, hb.2.2.1, hb.2.2.2]
      rw [show ({ a with setpoint := c.maxOutT } : Sim n 1).cfg = s.cfg from hacfg] at k1
      refine key _ _ _ ?_ ?_ k1 hrun
      · change ({ a.toPlant with setpoint := c.maxOutT } : Plant n) = _
        rw [hapl]
      · unfold Sim.workingSetpoint
        rw [if_pos ⟨hm.1, by rw [← haset]; exact hm.2⟩]
    · rw [if_neg hm] at hab
      obtain ⟨k1, -⟩ := addHeat_spec hab
      rw [hacfg] at k1
      refine key _ _ _ ?_ ?_ k1 hrun
      · rw [hapl]
      · unfold Sim.workingSetpoint
        rw [if_neg (fun hc => hm ⟨hc.1, by rw [haset]; exact hc.2⟩)]
        exact haset

/-- **C103**, for such a step with a multi-pass heat pump that ran: the reported volume is flow rate × run time, and the
output energy is what it takes to warm up from the reported inlet to the reported outlet temperature. -/
theorem C103_step_multi_pass (m : Libm) (fuel : ℕ) (s s' : Sim n 1) (u : Sim.StepInput) (c : CondCfg)
    (hk : (s.cfg.src 0).kind = .condenser c) (hext : c.configuration = .external) (hmp : c.isMultipass = true)
    (hback : (s.cfg.src 0).backup = none) (hoi : (s.cfg.src 0).externalOutlet ≤ (s.cfg.src 0).externalInlet)
    (hw : s.tank.WellFormed) (hstep : 0 ≤ s.cfg.minutesPerStep) (hd : 0 ≤ u.draw_L) (hextra : u.extraHeat_W = [])
    (hperf : ∀ water perf, c.getPerformance (s.cfg.src 0).airflowFreedom (s.workingSetpoint c (s.sourceAirT u))
      (s.sourceAirT u) water = .ok perf → 0 < perf.outputPower_W)
    (hflow : 0 < c.mpFlowRate_LPS) (h : Sim.runOneStep m fuel s u = .ok s') (hrun : 0 < (s'.st 0).runtime_min) :
    s'.externalVolumeHeated = 60 * c.mpFlowRate_LPS * (s'.st 0).runtime_min ∧
    s'.condenserInlet < s'.condenserOutlet ∧
    3600 * (s'.st 0).energyOutput_kWh =
      waterHeat s'.externalVolumeHeated s'.condenserOutlet - waterHeat s'.externalVolumeHeated s'.condenserInlet := by
  rcases C103_step m fuel s s' u c hk hext hback hoi hw hstep hd hextra hperf (fun _ => hflow)
    (fun hc => by rw [hmp] at hc; cases hc) h with h1 | h1
  · rw [h1.1] at hrun; exact absurd hrun (lt_irrefl 0)
  · obtain ⟨qs, q1, q2⟩ := h1 hrun
    obtain ⟨a1, -, -, a4⟩ := C103_reading (fun q hq => (q1 q hq).1) q2 hrun
    obtain ⟨b1, b2⟩ := a4 (60 * c.mpFlowRate_LPS) fun q hq => (q1 q hq).2.2 hmp
    exact ⟨b1, a1, b2⟩

/-- **C103**, for such a step with a single-pass heat pump that ran: the reported outlet temperature is the lower of
working setpoint and condenser maximum, and the reported inlet temperature is below it. -/
theorem C103_step_single_pass (m : Libm) (fuel : ℕ) (s s' : Sim n 1) (u : Sim.StepInput) (c : CondCfg)
    (hk : (s.cfg.src 0).kind = .condenser c) (hext : c.configuration = .external) (hsp : c.isMultipass = false)
    (hback : (s.cfg.src 0).backup = none) (hoi : (s.cfg.src 0).externalOutlet ≤ (s.cfg.src 0).externalInlet)
    (hw : s.tank.WellFormed) (hstep : 0 ≤ s.cfg.minutesPerStep) (hd : 0 ≤ u.draw_L) (hextra : u.extraHeat_W = [])
    (hperf : ∀ water perf, c.getPerformance (s.cfg.src 0).airflowFreedom (s.workingSetpoint c (s.sourceAirT u))
      (s.sourceAirT u) water = .ok perf → 0 < perf.outputPower_W)
    (hlogics : ∀ l ∈ (s.cfg.src 0).shutOff, l.UpperLimit)
    (h : Sim.runOneStep m fuel s u = .ok s') (hrun : 0 < (s'.st 0).runtime_min) :
    s'.condenserOutlet = min c.maxSetpoint (s.workingSetpoint c (s.sourceAirT u)) ∧
    s'.condenserInlet < s'.condenserOutlet := by
  rcases C103_step m fuel s s' u c hk hext hback hoi hw hstep hd hextra hperf
    (fun hc => by rw [hsp] at hc; cases hc) (fun _ => hlogics) h with h1 | h1
  · rw [h1.1] at hrun; exact absurd hrun (lt_irrefl 0)
  · obtain ⟨qs, q1, q2⟩ := h1 hrun
    obtain ⟨a1, a2, -, -⟩ := C103_reading (fun q hq => (q1 q hq).1) q2 hrun
    exact ⟨a2 _ fun q hq => (q1 q hq).2.1 hsp, a1⟩

/-- A water heater with one external heat pump, which comes on when the bottom is below 40 °C. -/
def externalSim (c : CondCfg) : Sim 3 1 where
  toPlant := samplePlant
  cfg :=
    { src := fun _ =>
        { kind := .condenser c, isVIP := false, backup := none, companion := none, followedBy := none
          heatDist := sampleDist, shrinkageT := 1, lowestNode := 0
          turnOn := [⟨.temp true .bottom, 40, .less, false, false, ""⟩], shutOff := [sampleShutOff], standby := none
          minT := -100, maxT := 100, depressesTemperature := false
          airflowFreedom := 1, externalInlet := 3, externalOutlet := 0 }
      minutesPerStep := 10, doTempDepression := false, maxDepression := 3, timerLimitTOT := 60
      compressorIndex := some 0, lowestElementIndex := none, vipIndex := none
      setpointFixed := false, isStorageTank := false, canScale := false, heightMap := [(0, 0)] }
  st := fun _ => ⟨false, false, 0, 0, 0⟩
  isHeating := false
  locationT := -500
  timerTOT := 0
  energyRemoved_kWh := 0
  standbyLosses_kWh := 0
  extraEnergyInput_kWh := 0

/-- The steps of both kinds exist: ten minutes with a draw. -/
example : (externalSim sampleMpCond).tank.WellFormed ∧
    (∃ s', Sim.runOneStep sampleLibm 40 (externalSim sampleMpCond)
      { sampleInput with inletVol2_L := 0, extraHeat_W := [] } = .ok s' ∧ 0 < (s'.st 0).runtime_min) ∧
    ∃ s', Sim.runOneStep sampleLibm 10 (externalSim sampleExtCond)
      { sampleInput with inletVol2_L := 0, extraHeat_W := [] } = .ok s' ∧ 0 < (s'.st 0).runtime_min :=
  ⟨warmTank_wellFormed, by decide +kernel, by decide +kernel⟩

/-- Two external heat pumps of which the second runs as companion of the first. -/
def twoExternalSim : Sim 3 2 :=
  { sampleSim with cfg := { sampleSim.cfg with
      src := fun i => { sampleExt with
        companion := if i = 0 then some 1 else none
        turnOn := [⟨.temp true .bottom, 40, .less, false, false, ""⟩] } } }

/-- **C103**, why one heat pump: with two in one step the report is wrong. The temperatures of the first are not set aside
before those of the second are added, and the sum is divided by the run time of the second alone: in a step of one minute
of two heat pumps that both heat water to 55 °C, the reported outlet temperature is 110 °C. -/
theorem C103_two_heat_pumps :
    ∃ s', Sim.runOneStep sampleLibm 5 twoExternalSim { sampleInput with inletVol2_L := 0, extraHeat_W := [] } = .ok s' ∧
      (s'.st 0).runtime_min = 1 ∧ (s'.st 1).runtime_min = 1 ∧ s'.setpoint = 55 ∧ s'.condenserOutlet = 110 := by
  decide +kernel

end HPWH
