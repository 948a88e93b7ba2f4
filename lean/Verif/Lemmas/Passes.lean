import Verif.Lemmas.MultiPass
import Verif.Props.HeatSource
import Verif.Spec.Passes

/-! Helper lemmas: the portions of water moved by external heating. -/

namespace HPWH

open Spec

variable {n k : ℕ}

theorem total_snoc (f : Portion → ℚ) (qs : List Portion) (q : Portion) :
    total f (qs ++ [q]) = total f qs + f q := by
  simp [total]

/-- What is required of a portion moved by condenser `c` in plant `p`. -/
structure Moved (c : CondCfg) (p : Plant n) (q : Portion) : Prop where
  sound : q.Sound
  coldest : ∀ lo : ℚ, (∀ j, lo ≤ p.tank.nodeTs j) → lo ≤ q.inletT
  single : c.isMultipass = false → q.outletT = min c.maxSetpoint p.setpoint
  multi : c.isMultipass = true → q.volume_L = 60 * c.mpFlowRate_LPS * q.minutes

/-- The sums kept by the loops of external heating are those of the portions. -/
structure Records (c : CondCfg) (period : ℚ) (p : Plant n) (a : ExtState n) (qs : List Portion) :
    Prop where
  moved : ∀ q ∈ qs, Moved c p q
  volume : a.plant.externalVolumeHeated = p.externalVolumeHeated + total (·.volume_L) qs
  inlet : a.plant.condenserInlet = p.condenserInlet + total (fun q => q.inletT * q.minutes) qs
  outlet : a.plant.condenserOutlet = p.condenserOutlet + total (fun q => q.outletT * q.minutes) qs
  minutes : period - a.remaining = total (·.minutes) qs
  heat : a.net.outputPower_W / 1000 * 60 = total (·.heat_kJ) qs

theorem Records.init (c : CondCfg) (period : ℚ) (p : Plant n) :
    Records c period p ⟨p, period, ⟨0, 0, 0⟩⟩ [] :=
  ⟨fun _ h => absurd h List.not_mem_nil, by simp [total], by simp [total], by simp [total],
    by simp [total], by simp [total]⟩

theorem extFinishPass_sums (s : SourceCfg n k) (c : CondCfg) (p : Plant n) (net perf : Perf)
    (frac target time remaining : ℚ) (a : ExtState n)
    (h : extFinishPass s c p net perf frac target time remaining = .ok a) :
    a.plant.externalVolumeHeated = p.externalVolumeHeated + frac * p.tank.nodeVolume_L ∧
    a.plant.condenserInlet = p.condenserInlet + p.tank.nodeTs s.externalOutlet * time ∧
    a.plant.condenserOutlet = p.condenserOutlet + target * time ∧
    a.remaining = remaining ∧ a.net.outputPower_W = net.outputPower_W + perf.outputPower_W * time := by
  unfold extFinishPass at h
  rw [bind_ok_iff] at h
  obtain ⟨p1, h1, h2⟩ := h
  have h1 := updateSoC_eq h1
  rw [← Except.ok.inj h2, h1]
  refine ⟨?_, rfl, rfl, rfl, rfl⟩
  dsimp only
  rw [Tank.mixInversions_eq]

theorem Records.snoc {s : SourceCfg n k} {c : CondCfg} {period : ℚ} {p p1 : Plant n} {a a' : ExtState n}
    {qs : List Portion} {perf : Perf} {frac target time remaining : ℚ} (hr : Records c period p a qs)
    (h : extFinishPass s c p1 a.net perf frac target time remaining = .ok a')
    (h1 : p1.externalVolumeHeated = a.plant.externalVolumeHeated)
    (h2 : p1.condenserInlet = a.plant.condenserInlet)
    (h3 : p1.condenserOutlet = a.plant.condenserOutlet) (h4 : remaining = a.remaining - time)
    (hm : Moved c p ⟨frac * p1.tank.nodeVolume_L, p1.tank.nodeTs s.externalOutlet, target, time,
      perf.outputPower_W / 1000 * 60 * time⟩) : ∃ qs, Records c period p a' qs := by
  obtain ⟨e1, e2, e3, e4, e5⟩ := extFinishPass_sums s c p1 a.net perf frac target time remaining a' h
  refine ⟨qs ++ [⟨frac * p1.tank.nodeVolume_L, p1.tank.nodeTs s.externalOutlet, target, time,
    perf.outputPower_W / 1000 * 60 * time⟩], ?_, ?_, ?_, ?_, ?_, ?_⟩
  · intro q hq
    rcases List.mem_append.mp hq with hq | hq
    · exact hr.moved q hq
    · rw [List.mem_singleton.mp hq]; exact hm
  · rw [total_snoc, e1, h1, hr.volume]; ring
  · rw [total_snoc, e2, h2, hr.inlet]; ring
  · rw [total_snoc, e3, h3, hr.outlet]; ring
  · rw [total_snoc, e4, h4, ← hr.minutes]; ring
  · rw [total_snoc, e5, ← hr.heat]; ring

theorem spPass_records (s : SourceCfg n k) (c : CondCfg) (externalT period : ℚ) (p : Plant n)
    (a a' : ExtState n) (qs : List Portion) (ht : p.tank.Consistent)
    (hperf : ∀ w perf, p.MayDraw c w →
      c.getPerformance s.airflowFreedom p.setpoint externalT w = .ok perf → 0 < perf.outputPower_W)
    (hmp : c.isMultipass = false) (hfrac : ∀ f, s.fractToMeet a.plant = .ok f → 0 ≤ f)
    (inv : ExtInv s c externalT period p a) (hr : Records c period p a qs)
    (h : spPass s c externalT a = .ok (some a')) : ∃ qs', Records c period p a' qs' := by
  have hcp := ht.nodeCp_pos
  unfold spPass at h
  rw [bind_ok_iff] at h
  obtain ⟨perf, hpf, h⟩ := h
  dsimp only at h
  have hset : a.plant.setpoint = p.setpoint := inv.same.2.1
  rw [hset] at hpf
  set outletT := a.plant.tank.nodeTs s.externalOutlet with hout
  set target := min c.maxSetpoint a.plant.setpoint with htarget
  by_cases hd : target - outletT ≤ 0
  · rw [if_pos hd] at h
    exact absurd h (by simp [pure, Except.pure])
  rw [if_neg hd, bind_ok_iff] at h
  obtain ⟨toff, hoff, h⟩ := h
  have hoff0 := hfrac _ hoff
  have hd' : 0 < target - outletT := not_le.mp hd
  have hmay : p.MayDraw c outletT :=
    ⟨exists_node_le _ _ fun lo hlo => inv.lower lo hlo _, fun _ => by
      rw [← hset]; exact sub_pos.mp hd'⟩
  have hpos := hperf _ _ hmay hpf
  have hcpa : a.plant.tank.nodeCp = p.tank.nodeCp := inv.same.cp
  have hVa : a.plant.tank.nodeVolume_L = p.tank.nodeVolume_L := by rw [inv.same.1]
  have hheat : 0 < a.plant.tank.nodeCp * (target - outletT) := by
    rw [hcpa]; exact mul_pos hcp hd'
  set nodeHeat := a.plant.tank.nodeCp * (target - outletT) with hnh
  have hrem := inv.nonneg
  have hcap : 0 ≤ Units.W_TO_KW perf.outputPower_W * (a.remaining * Units.secPerMin) := by
    unfold Units.W_TO_KW Units.secPerMin; positivity
  set capacity := Units.W_TO_KW perf.outputPower_W * (a.remaining * Units.secPerMin) with hcapdef
  set frac0 := if capacity < nodeHeat then capacity / nodeHeat else 1 with hf0
  set needed0 := if capacity < nodeHeat then capacity else nodeHeat with hn0
  have hfn0 : frac0 * nodeHeat = needed0 := by
    rw [hf0, hn0]; split_ifs
    · field_simp
    · ring
  have hf0pos : 0 ≤ frac0 := by
    rw [hf0]; split_ifs
    · positivity
    · norm_num
  have hn0le : needed0 ≤ capacity := by
    rw [hn0]; split_ifs with hc
    · exact le_rfl
    · exact not_lt.mp hc
  set frac := if toff < frac0 then toff else frac0 with hfr
  set needed := if toff < frac0 then toff * nodeHeat else needed0 with hnd
  have hfn : frac * nodeHeat = needed := by
    rw [hfr, hnd]; split_ifs
    · rfl
    · exact hfn0
  have hfrac0 : 0 ≤ frac := by rw [hfr]; split_ifs <;> assumption
  have hneeded0 : 0 ≤ needed := by rw [← hfn]; exact mul_nonneg hfrac0 hheat.le
  have hneededle : needed ≤ capacity := by
    rw [← hfn]
    refine le_trans ?_ hn0le
    rw [← hfn0]
    apply mul_le_mul_of_nonneg_right _ hheat.le
    rw [hfr]; split_ifs with hc
    · exact hc.le
    · exact le_rfl
  have hnan : ¬ (capacity > needed ∧ capacity = 0) := fun hc => by linarith [hc.1, hc.2]
  rw [if_neg hnan, bind_ok_iff] at h
  obtain ⟨r, hr', h⟩ := h
  have hra : r = a' := by simpa [pure, Except.pure] using h
  subst hra
  set time := if capacity > needed then a.remaining * (needed / capacity) else a.remaining with htime
  set rem' := if capacity > needed then a.remaining - time else 0 with hrem'
  have hrt : rem' = a.remaining - time := by
    rw [hrem']; split_ifs with hc
    · rfl
    · rw [htime, if_neg hc]; ring
  have ht0 : 0 ≤ time := by
    rw [htime]; split_ifs with hc
    · positivity
    · exact hrem
  have henergy : perf.outputPower_W / 1000 * 60 * time = needed := by
    rw [htime]; split_ifs with hc
    · have hc0 : capacity ≠ 0 := (hneeded0.trans_lt hc).ne'
      have : perf.outputPower_W / 1000 * 60 * (a.remaining * (needed / capacity)) =
          capacity * (needed / capacity) := by
        rw [hcapdef]
        unfold Units.W_TO_KW Units.secPerMin
        ring
      rw [this]; field_simp
    · have : needed = capacity := le_antisymm hneededle (not_lt.mp hc)
      rw [this, hcapdef]
      unfold Units.W_TO_KW Units.secPerMin
      ring
  refine hr.snoc hr' rfl rfl rfl hrt ⟨⟨?_, sub_pos.mp hd', ht0, ?_⟩, fun lo hlo => inv.lower lo hlo _,
    fun _ => ?_, fun hc => ?_⟩
  · dsimp only
    rw [henergy, ← hfn, hnh, hcpa, hVa, ht.nodeCp, ← hout]
    unfold waterHeat cpWater rhoWater
    ring
  · dsimp only
    rw [hVa]
    exact mul_nonneg hfrac0 ht.nodeVolume_pos.le
  · dsimp only
    rw [htarget, hset]
  · rw [hmp] at hc; cases hc

theorem spLoop_records (s : SourceCfg n k) (c : CondCfg) (externalT period : ℚ) (p : Plant n)
    (ht : p.tank.Consistent) (hoi : s.externalOutlet ≤ s.externalInlet)
    (hperf : ∀ w perf, p.MayDraw c w →
      c.getPerformance s.airflowFreedom p.setpoint externalT w = .ok perf → 0 < perf.outputPower_W)
    (hmp : c.isMultipass = false)
    (hfrac : ∀ q f, p.SameSettings q → s.shutsOff q = .ok false → s.fractToMeet q = .ok f → 0 ≤ f) :
    ∀ (fuel : ℕ) (a a' : ExtState n), (∀ f, s.fractToMeet a.plant = .ok f → 0 ≤ f) →
      ExtInv s c externalT period p a → (∃ qs, Records c period p a qs) →
      spLoop s c externalT fuel a = .ok a' → ∃ qs, Records c period p a' qs := by
  intro fuel
  induction fuel with
  | zero => intro a a' _ _ _ h; exact absurd h (by simp [spLoop])
  | succ fuel ih =>
    intro a a' hf inv hr h
    rw [spLoop, bind_ok_iff] at h
    obtain ⟨r, hr', h⟩ := h
    cases r with
    | none =>
      have : a = a' := by simpa [pure, Except.pure] using h
      rw [← this]; exact hr
    | some b =>
      have ib := spPass_inv s c externalT period p a b ht.nodeCp_pos ht.volume_pos.ne' hoi hperf hmp hf inv hr'
      have rb := spPass_records s c externalT period p a b hr.choose ht hperf hmp hf inv hr.choose_spec hr'
      simp only at h
      split_ifs at h with hb
      · rw [bind_ok_iff] at h
        obtain ⟨off, hoff, h⟩ := h
        cases off with
        | true =>
          have : b = a' := by simpa [pure, Except.pure] using h
          rw [← this]; exact rb
        | false =>
          simp only [Bool.false_eq_true, if_false] at h
          exact ih b a' (fun f hf' => hfrac b.plant f ib.same hoff hf') ib rb h
      · have : b = a' := by simpa [pure, Except.pure] using h
        rw [← this]; exact rb

theorem mpPass_records (s : SourceCfg n k) (c : CondCfg) (externalT period : ℚ) (p : Plant n)
    (a a' : ExtState n) (qs : List Portion) (ht : p.tank.Consistent) (hmp : c.isMultipass = true)
    (hflow : 0 < c.mpFlowRate_LPS)
    (hperf : ∀ w perf, p.MayDraw c w →
      c.getPerformance s.airflowFreedom p.setpoint externalT w = .ok perf → 0 < perf.outputPower_W)
    (inv : ExtInv s c externalT period p a) (hr : Records c period p a qs)
    (h : mpPass s c externalT a = .ok a') : ∃ qs', Records c period p a' qs' := by
  have hrem := inv.nonneg
  have hV := ht.nodeVolume_pos
  unfold mpPass at h
  dsimp only at h
  rw [bind_ok_iff] at h
  obtain ⟨T, hT, h⟩ := h
  rw [bind_ok_iff] at h
  obtain ⟨perf, hpf, h⟩ := h
  rw [inv.same.2.1] at hpf
  rw [if_neg hflow.ne'] at h
  have hVa : a.plant.tank.nodeVolume_L = p.tank.nodeVolume_L := by rw [inv.same.1]
  have hcpa : a.plant.tank.nodeCp = p.tank.nodeCp := inv.same.cp
  have hfr := frac_range (c.mpFlowRate_LPS * (a.remaining * Units.secPerMin))
    p.tank.nodeVolume_L (by unfold Units.secPerMin; positivity) hV
  rw [← hVa] at hfr
  have hlow : ∀ lo : ℚ, (∀ j, lo ≤ p.tank.nodeTs j) → lo ≤ T s.externalOutlet := fun lo hlo =>
      (Tank.mixNodes_bounds a.plant.tank.nodeTs T 0 (n + 1) _ hfr.1 hfr.2 hT lo
        (maxWeight a.plant.tank.nodeTs)
        (fun j => ⟨inv.lower lo hlo j, le_maxWeight _ j⟩) _).1
  have hmay : p.MayDraw c (T s.externalOutlet) :=
    ⟨exists_node_le _ _ hlow, fun hc => by rw [hmp] at hc; exact absurd hc (by simp)⟩
  have hpos := hperf _ _ hmay hpf
  have hP : 0 < Units.W_TO_KW perf.outputPower_W := by unfold Units.W_TO_KW; positivity
  have hnum := mp_numbers c.mpFlowRate_LPS (Units.W_TO_KW perf.outputPower_W)
    p.tank.nodeVolume_L p.tank.nodeCp a.remaining hflow hP hV ht.nodeCp hrem
  simp only [hVa, hcpa, Units.secPerMin] at h hT
  set frac := (if c.mpFlowRate_LPS * (a.remaining * 60) / p.tank.nodeVolume_L > 1 then 1
    else c.mpFlowRate_LPS * (a.remaining * 60) / p.tank.nodeVolume_L) with hfrac
  set deltaT := Units.W_TO_KW perf.outputPower_W / (c.mpFlowRate_LPS * cpWater * rhoWater) with hdT
  set capacity := Units.W_TO_KW perf.outputPower_W * (a.remaining * 60) with hcap
  have hc1 : (0 : ℚ) < cpWater := by norm_num [cpWater]
  have hr1 : (0 : ℚ) < rhoWater := by norm_num [rhoWater]
  have hdT0 : 0 < deltaT := by rw [hdT]; positivity
  have hnh0 : 0 ≤ p.tank.nodeCp * deltaT := mul_nonneg ht.nodeCp_pos.le hdT0.le
  rw [if_neg (fun hc => by linarith [hc.1, hc.2])] at h
  set time := (if capacity > p.tank.nodeCp * deltaT then
    a.remaining * (p.tank.nodeCp * deltaT / capacity) else a.remaining) with htime
  have hrem' : (if capacity > p.tank.nodeCp * deltaT then a.remaining - time else 0) =
      (if capacity > p.tank.nodeCp * deltaT then
        a.remaining - a.remaining * (p.tank.nodeCp * deltaT / capacity) else 0) := by
    rw [htime]; split_ifs <;> rfl
  rw [hrem'] at h
  have hen := hnum.energy
  have hpw : Units.W_TO_KW perf.outputPower_W = perf.outputPower_W / 1000 := by
    unfold Units.W_TO_KW; ring
  refine hr.snoc h rfl rfl rfl hnum.left ⟨⟨?_, ?_, hnum.time0, ?_⟩, hlow, fun hc => ?_, fun _ => ?_⟩
  · dsimp only
    rw [← hpw, ← hen, hVa, ht.nodeCp]
    unfold waterHeat cpWater rhoWater
    ring
  · dsimp only
    linarith
  · dsimp only
    rw [hVa]
    exact mul_nonneg hnum.frac0 hV.le
  · rw [hmp] at hc; cases hc
  · dsimp only
    rw [hVa]
    have h1 : Units.W_TO_KW perf.outputPower_W = deltaT * (c.mpFlowRate_LPS * cpWater * rhoWater) := by
      rw [hdT]; field_simp
    rw [ht.nodeCp] at hen
    have h2 : (cpWater * rhoWater * deltaT) * (frac * p.tank.nodeVolume_L) =
        (cpWater * rhoWater * deltaT) * (60 * c.mpFlowRate_LPS * time) := by
      have : cpWater * rhoWater * p.tank.nodeVolume_L * (frac * deltaT) =
          deltaT * (c.mpFlowRate_LPS * cpWater * rhoWater) * 60 * time := by
        rw [← h1]; exact hen
      linarith
    exact mul_left_cancel₀ (by positivity) h2

theorem mpLoop_records (s : SourceCfg n k) (c : CondCfg) (externalT period : ℚ) (p : Plant n)
    (ht : p.tank.Consistent) (hoi : s.externalOutlet ≤ s.externalInlet) (hmp : c.isMultipass = true)
    (hflow : 0 < c.mpFlowRate_LPS)
    (hperf : ∀ w perf, p.MayDraw c w →
      c.getPerformance s.airflowFreedom p.setpoint externalT w = .ok perf → 0 < perf.outputPower_W) :
    ∀ (fuel : ℕ) (a a' : ExtState n),
      ExtInv s c externalT period p a → (∃ qs, Records c period p a qs) →
      mpLoop s c externalT fuel a = .ok a' → ∃ qs, Records c period p a' qs := by
  intro fuel
  induction fuel with
  | zero => intro a a' _ _ h; exact absurd h (by simp [mpLoop])
  | succ fuel ih =>
    intro a a' inv hr h
    rw [mpLoop, bind_ok_iff] at h
    obtain ⟨b, hb, h⟩ := h
    obtain ⟨ib, -⟩ := mpPass_inv s c externalT period p a b ht.volume_pos.ne' ht.nodeVolume_pos ht.nodeCp
      hoi hmp hflow hperf inv hb
    have rb := mpPass_records s c externalT period p a b hr.choose ht hmp hflow hperf inv hr.choose_spec hb
    split_ifs at h with hpos
    · rw [bind_ok_iff] at h
      obtain ⟨off, hoff, h⟩ := h
      cases off with
      | true =>
        have : b = a' := by simpa [pure, Except.pure] using h
        rw [← this]; exact rb
      | false =>
        simp only [Bool.false_eq_true, if_false] at h
        exact ih b a' ib rb h
    · have : b = a' := by simpa [pure, Except.pure] using h
      rw [← this]; exact rb

/-- The results of external heating that lasted some time describe the portions. -/
theorem Records.describes {s : SourceCfg n k} {c : CondCfg} {fuel : ℕ} {externalT period : ℚ} {p p' : Plant n}
    {st st' : SourceState} (hin : p.condenserInlet = 0) (hout : p.condenserOutlet = 0)
    (hrec : ∀ a, (if c.isMultipass then mpLoop s c externalT fuel ⟨p, period, ⟨0, 0, 0⟩⟩
      else spLoop s c externalT fuel ⟨p, period, ⟨0, 0, 0⟩⟩) = .ok a → ∃ qs, Records c period p a qs)
    (h : externalAddHeat fuel s c p st externalT period = .ok (p', st')) (hrun : 0 < st'.runtime_min) :
    ∃ qs, (∀ q ∈ qs, Moved c p q) ∧
      Describes (p'.externalVolumeHeated - p.externalVolumeHeated) st'.runtime_min
        (3600 * (st'.energyOutput_kWh - st.energyOutput_kWh)) p'.condenserInlet p'.condenserOutlet qs := by
  unfold externalAddHeat at h
  rw [bind_ok_iff] at h
  obtain ⟨r, hr, h⟩ := h
  have hr : ∃ a, (if c.isMultipass then mpLoop s c externalT fuel ⟨p, period, ⟨0, 0, 0⟩⟩
      else spLoop s c externalT fuel ⟨p, period, ⟨0, 0, 0⟩⟩) = .ok a ∧ .ok (extFinish period a) = (.ok r : Res _) := by
    unfold addHeatExternal at hr
    cases hc : c.isMultipass <;>
    · simp only [hc, if_true, Bool.false_eq_true, if_false] at hr ⊢
      rw [bind_ok_iff] at hr
      exact hr
  obtain ⟨a, ha, hr⟩ := hr
  obtain ⟨qs, rec⟩ := hrec a ha
  have hr := (Except.ok.inj hr).symm
  have h := (Except.ok.inj h).symm
  obtain ⟨rfl, rfl⟩ := Prod.mk.inj h
  dsimp only at hrun
  unfold extFinish at hr
  dsimp only at hr
  by_cases hpos : period - a.remaining > 0
  · rw [if_pos hpos] at hr
    subst hr
    have hne := hpos.ne'
    refine ⟨qs, rec.moved, ?_, ?_, ?_, ?_, ?_⟩
    · dsimp only; rw [rec.volume]; ring
    · exact rec.minutes
    · dsimp only
      rw [← rec.heat]
      unfold Units.W_TO_KW Units.minPerHr
      field_simp
      ring
    · dsimp only
      rw [rec.inlet, hin]; field_simp; ring
    · dsimp only
      rw [rec.outlet, hout]; field_simp; ring
  · rw [if_neg hpos] at hr
    subst hr
    exact absurd hrun hpos

end HPWH
