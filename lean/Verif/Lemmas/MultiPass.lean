import Verif.Lemmas.Logic

/-! Helper lemmas about multi-pass external heating. -/

namespace HPWH

variable {n k : ℕ}

/-- The numbers of one multi-pass pass. -/
structure MpNumbers (flow P V cp rem deltaT nodeHeat capacity frac time rem' : ℚ) : Prop where
  frac0 : 0 ≤ frac
  frac1 : frac ≤ 1
  time0 : 0 ≤ time
  timele : time ≤ rem
  left : rem' = rem - time
  energy : cp * (frac * deltaT) = P * 60 * time
  progress : 0 < rem' → time = V / (60 * flow)

theorem mp_numbers (flow P V cp rem : ℚ) (hflow : 0 < flow) (hP : 0 < P) (hV : 0 < V)
    (hcp : cp = cpWater * rhoWater * V) (hrem : 0 ≤ rem) :
    MpNumbers flow P V cp rem (P / (flow * cpWater * rhoWater))
      (cp * (P / (flow * cpWater * rhoWater))) (P * (rem * 60))
      (if flow * (rem * 60) / V > 1 then 1 else flow * (rem * 60) / V)
      (if P * (rem * 60) > cp * (P / (flow * cpWater * rhoWater)) then
        rem * (cp * (P / (flow * cpWater * rhoWater)) / (P * (rem * 60))) else rem)
      (if P * (rem * 60) > cp * (P / (flow * cpWater * rhoWater)) then
        rem - rem * (cp * (P / (flow * cpWater * rhoWater)) / (P * (rem * 60))) else 0) := by
  have hc : (0 : ℚ) < cpWater := by norm_num [cpWater]
  have hr : (0 : ℚ) < rhoWater := by norm_num [rhoWater]
  have hnh : cp * (P / (flow * cpWater * rhoWater)) = P * (V / flow) := by
    rw [hcp]; field_simp
  have hiff : P * (rem * 60) > P * (V / flow) ↔ flow * (rem * 60) / V > 1 := by
    rw [gt_iff_lt, mul_lt_mul_iff_right₀ hP, div_lt_iff₀ hflow, gt_iff_lt, lt_div_iff₀ hV]
    constructor <;> intro h <;> linarith
  rw [hnh]
  by_cases h : flow * (rem * 60) / V > 1
  · have h' := hiff.mpr h
    simp only [h, h', if_true]
    have hrem' : rem ≠ 0 := by
      rintro rfl
      norm_num at h
    have htime : rem * (P * (V / flow) / (P * (rem * 60))) = V / (60 * flow) := by
      field_simp
    rw [htime]
    have hle : V / (60 * flow) ≤ rem := by
      rw [gt_iff_lt, lt_div_iff₀ hV] at h
      rw [div_le_iff₀ (by positivity)]
      linarith
    refine ⟨by norm_num, le_rfl, by positivity, hle, rfl, ?_, fun _ => rfl⟩
    rw [one_mul, hnh]
    field_simp
  · have h' : ¬ P * (rem * 60) > P * (V / flow) := fun hc => h (hiff.mp hc)
    simp only [h, h', if_false]
    refine ⟨by positivity, not_lt.mp h, hrem, le_rfl, by ring, ?_, fun hc => absurd hc (lt_irrefl _)⟩
    rw [hcp]
    field_simp

/-- One multi-pass pass preserves the invariant and uses up time. -/
theorem frac_range (x V : ℚ) (hx : 0 ≤ x) (hV : 0 < V) :
    0 ≤ (if x / V > 1 then 1 else x / V) ∧ (if x / V > 1 then 1 else x / V) ≤ 1 := by
  split_ifs with h
  · exact ⟨by norm_num, le_rfl⟩
  · exact ⟨div_nonneg hx hV.le, not_lt.mp h⟩

theorem mpPass_inv (s : SourceCfg n k) (c : CondCfg) (externalT period : ℚ) (p : Plant n)
    (a a' : ExtState n) (hv : p.tank.volume_L ≠ 0)
    (hV : 0 < p.tank.nodeVolume_L)
    (hcpV : p.tank.nodeCp = cpWater * rhoWater * p.tank.nodeVolume_L)
    (hoi : s.externalOutlet ≤ s.externalInlet) (hmp : c.isMultipass = true)
    (hflow : 0 < c.mpFlowRate_LPS)
    (hperf : ∀ w perf, p.MayDraw c w →
      c.getPerformance s.airflowFreedom p.setpoint externalT w = .ok perf → 0 < perf.outputPower_W)
    (inv : ExtInv s c externalT period p a)
    (h : mpPass s c externalT a = .ok a') :
    ExtInv s c externalT period p a' ∧
    (0 < a'.remaining → a'.remaining = a.remaining - p.tank.nodeVolume_L / (60 * c.mpFlowRate_LPS)) := by
  have hrem := inv.nonneg
  unfold mpPass at h
  dsimp only at h
  rw [bind_ok_iff] at h
  obtain ⟨T, hT, h⟩ := h
  rw [bind_ok_iff] at h
  obtain ⟨perf, hpf, h⟩ := h
  rw [inv.same.2.1] at hpf
  rw [if_neg hflow.ne'] at h
  have hVa : a.plant.tank.nodeVolume_L = p.tank.nodeVolume_L := by rw [inv.same.1]
  have hcpa : a.plant.tank.nodeCp = p.tank.nodeCp := inv.same.cp
  have hfr := frac_range (c.mpFlowRate_LPS * (a.remaining * Units.secPerMin))
    p.tank.nodeVolume_L (by unfold Units.secPerMin; positivity) hV
  rw [← hVa] at hfr
  have hmay : p.MayDraw c (T s.externalOutlet) :=
    ⟨exists_node_le _ _ fun lo hlo =>
      (Tank.mixNodes_bounds a.plant.tank.nodeTs T 0 (n + 1) _ hfr.1 hfr.2 hT lo
        (maxWeight a.plant.tank.nodeTs)
        (fun j => ⟨inv.lower lo hlo j, le_maxWeight _ j⟩) _).1,
      fun hc => by rw [hmp] at hc; exact absurd hc (by simp)⟩
  have hpos := hperf _ _ hmay hpf
  have hP : 0 < Units.W_TO_KW perf.outputPower_W := by unfold Units.W_TO_KW; positivity
  have hnum := mp_numbers c.mpFlowRate_LPS (Units.W_TO_KW perf.outputPower_W)
    p.tank.nodeVolume_L p.tank.nodeCp a.remaining hflow hP hV hcpV hrem
  simp only [hVa, hcpa, Units.secPerMin] at h hT
  set frac := (if c.mpFlowRate_LPS * (a.remaining * 60) / p.tank.nodeVolume_L > 1 then 1
    else c.mpFlowRate_LPS * (a.remaining * 60) / p.tank.nodeVolume_L) with hfrac
  set deltaT := Units.W_TO_KW perf.outputPower_W / (c.mpFlowRate_LPS * cpWater * rhoWater) with hdT
  set capacity := Units.W_TO_KW perf.outputPower_W * (a.remaining * 60) with hcap
  have hnh0 : 0 ≤ p.tank.nodeCp * deltaT := by
    have h1 : (0 : ℚ) < cpWater := by norm_num [cpWater]
    have h2 : (0 : ℚ) < rhoWater := by norm_num [rhoWater]
    rw [hcpV, hdT]; positivity
  rw [if_neg (fun hc => by linarith [hc.1, hc.2])] at h
  set time := (if capacity > p.tank.nodeCp * deltaT then
    a.remaining * (p.tank.nodeCp * deltaT / capacity) else a.remaining) with htime
  have hrem' : (if capacity > p.tank.nodeCp * deltaT then a.remaining - time else 0) =
      (if capacity > p.tank.nodeCp * deltaT then
        a.remaining - a.remaining * (p.tank.nodeCp * deltaT / capacity) else 0) := by
    rw [htime]; split_ifs <;> rfl
  rw [hrem'] at h
  set rem' := (if capacity > p.tank.nodeCp * deltaT then
        a.remaining - a.remaining * (p.tank.nodeCp * deltaT / capacity) else 0) with hremdef
  have hvol : a.plant.tank.volume_L = p.tank.volume_L := inv.same.volume
  obtain ⟨e1, e2, e3, e4, e7, e5, e6⟩ := extFinishPass_spec s c _ a.net perf frac _ time
    rem' a' (by rw [← hvol] at hv; exact hv) h
  have hsame : p.SameSettings a'.plant := by
    refine Plant.SameSettings.trans (q := { a.plant with
      tank := { a.plant.tank with nodeTs := T } }) ?_ e1
    obtain ⟨a1, a2, a3, a4, a5⟩ := inv.same
    refine ⟨?_, a2, a3, a4, a5⟩
    rw [a1]
  have hle := inv.le
  have ht0 := hnum.time0
  have htle := hnum.timele
  have hleft := hnum.left
  have hfull : a'.remaining = period → a.remaining = period ∧ time = 0 := by
    intro hp
    rw [e2, hleft] at hp
    constructor <;> linarith
  refine ⟨⟨hsame, ?_, ?_, ?_, ?_, ?_, ?_, ?_, ?_, ?_, ?_⟩, ?_⟩
  · rw [e2, hleft]; linarith
  · rw [e2, hleft]; linarith
  · rw [e5 hoi]
    simp only
    rw [Tank.mixNodes_sum _ _ _ _ _ hT, mul_add, inv.energy, e4]
    have := hnum.energy
    simp only [add_sub_cancel_left]
    rw [this]
    unfold Units.W_TO_KW
    ring
  · intro hp
    obtain ⟨h1, h2⟩ := hfull hp
    rw [e4, inv.none_out h1, h2]; ring
  · intro hp
    obtain ⟨h1, h2⟩ := hfull hp
    rw [e3, inv.none_in h1, h2]; ring
  · intro lo hi hb
    obtain ⟨i1, i2⟩ := inv.input lo hi hb
    obtain ⟨b1, b2⟩ := hb _ _ hmay hpf
    rw [e3, e2, hleft]
    have k1 : (lo + c.extraPumpPower_W) * time ≤ (perf.inputPower_W + c.extraPumpPower_W) * time :=
      mul_le_mul_of_nonneg_right (by linarith) ht0
    have k2 : (perf.inputPower_W + c.extraPumpPower_W) * time ≤ (hi + c.extraPumpPower_W) * time :=
      mul_le_mul_of_nonneg_right (by linarith) ht0
    constructor <;> linarith
  · refine ⟨fun lo hb => ?_, fun hi hb => ?_⟩
    · have i1 := inv.output.1 lo hb
      rw [e4, e2, hleft]
      have k1 : lo * time ≤ perf.outputPower_W * time := mul_le_mul_of_nonneg_right (hb _ _ hmay hpf) ht0
      linarith
    · have i1 := inv.output.2 hi hb
      rw [e4, e2, hleft]
      have k1 : perf.outputPower_W * time ≤ hi * time := mul_le_mul_of_nonneg_right (hb _ _ hmay hpf) ht0
      linarith
  · intro hc; rw [hmp] at hc; exact absurd hc (by simp)
  · intro lo hlo j
    have hT' : ∀ j, lo ≤ T j := fun j =>
      (Tank.mixNodes_bounds a.plant.tank.nodeTs T 0 (n + 1) frac hnum.frac0 hnum.frac1 hT lo
        (maxWeight a.plant.tank.nodeTs)
        (fun j => ⟨inv.lower lo hlo j, le_maxWeight _ j⟩) j).1
    have hdT0 : 0 ≤ deltaT := by
      rw [hdT]
      have hc : (0 : ℚ) < cpWater := by norm_num [cpWater]
      have hr : (0 : ℚ) < rhoWater := by norm_num [rhoWater]
      positivity
    have ho := hT' s.externalOutlet
    exact (e6 lo (max (maxWeight T) (T s.externalOutlet + deltaT)) hnum.frac0 hnum.frac1
      (fun j => ⟨hT' j, (le_maxWeight _ j).trans (le_max_left _ _)⟩)
      ⟨by linarith, le_max_right _ _⟩ j).1
  · intro hmix _
    rw [e7]
    apply Tank.mixInversions_nodes_monotone
    change a.plant.tank.doInversionMixing = true
    rw [inv.same.1]
    exact hmix
  · intro hp
    rw [e2] at hp ⊢
    rw [hleft, hnum.progress hp]

theorem mpLoop_inv (s : SourceCfg n k) (c : CondCfg) (externalT period : ℚ) (p : Plant n)
    (hv : p.tank.volume_L ≠ 0) (hV : 0 < p.tank.nodeVolume_L)
    (hcpV : p.tank.nodeCp = cpWater * rhoWater * p.tank.nodeVolume_L)
    (hoi : s.externalOutlet ≤ s.externalInlet) (hmp : c.isMultipass = true)
    (hflow : 0 < c.mpFlowRate_LPS)
    (hperf : ∀ w perf, p.MayDraw c w →
      c.getPerformance s.airflowFreedom p.setpoint externalT w = .ok perf → 0 < perf.outputPower_W) :
    ∀ (fuel : ℕ) (a a' : ExtState n),
      ExtInv s c externalT period p a →
      mpLoop s c externalT fuel a = .ok a' → ExtInv s c externalT period p a' := by
  intro fuel
  induction fuel with
  | zero => intro a a' _ h; exact absurd h (by simp [mpLoop])
  | succ fuel ih =>
    intro a a' inv h
    rw [mpLoop, bind_ok_iff] at h
    obtain ⟨b, hb, h⟩ := h
    obtain ⟨ib, -⟩ := mpPass_inv s c externalT period p a b hv hV hcpV hoi hmp hflow hperf inv hb
    split_ifs at h with hpos
    · rw [bind_ok_iff] at h
      obtain ⟨off, hoff, h⟩ := h
      cases off with
      | true =>
        have : b = a' := by simpa [pure, Except.pure] using h
        rw [← this]; exact ib
      | false =>
        simp only [Bool.false_eq_true, if_false] at h
        exact ih b a' ib h
    · have : b = a' := by simpa [pure, Except.pure] using h
      rw [← this]; exact ib

/-- A heat source, condenser and outside temperature for which every evaluation during external
heating of a plant with the settings of `p` succeeds. -/
structure Evaluable (s : SourceCfg n k) (c : CondCfg) (externalT : ℚ) (p : Plant n) : Prop where
  perf : ∀ w, ∃ perf, c.getPerformance s.airflowFreedom p.setpoint externalT w = .ok perf
  pos : ∀ w perf, p.MayDraw c w → c.getPerformance s.airflowFreedom p.setpoint externalT w = .ok perf →
    0 < perf.outputPower_W
  logics : ∀ l ∈ s.shutOff, l.Usable p
  soc : p.SoCUsable

theorem extFinishPass_ok (s : SourceCfg n k) (c : CondCfg) (p : Plant n) (net perf : Perf)
    (frac target time remaining : ℚ) (h : p.SoCUsable) :
    ∃ a, extFinishPass s c p net perf frac target time remaining = .ok a := by
  unfold extFinishPass
  dsimp only
  obtain ⟨q, hq⟩ := updateSoC_ok ({ p with
    tank := ({ p.tank with
      nodeTs := shiftNodes p.tank.nodeTs s.externalOutlet s.externalInlet frac target } :
        Tank n).mixInversions
    condenserInlet := p.condenserInlet + p.tank.nodeTs s.externalOutlet * time
    condenserOutlet := p.condenserOutlet + target * time } : Plant n) h
  rw [hq]
  exact ⟨_, rfl⟩

theorem mpPass_ok (s : SourceCfg n k) (c : CondCfg) (externalT : ℚ) (p : Plant n)
    (a : ExtState n) (he : Evaluable s c externalT p) (hs : p.SameSettings a.plant)
    (hflow : 0 < c.mpFlowRate_LPS) (hrem : 0 < a.remaining) :
    ∃ a', mpPass s c externalT a = .ok a' := by
  unfold mpPass
  dsimp only
  obtain ⟨T, hT⟩ : ∃ T, Tank.mixNodes a.plant.tank.nodeTs 0 (n + 1)
      (if c.mpFlowRate_LPS * (a.remaining * Units.secPerMin) / a.plant.tank.nodeVolume_L > 1 then 1
        else c.mpFlowRate_LPS * (a.remaining * Units.secPerMin) / a.plant.tank.nodeVolume_L) =
      .ok T := by
    unfold Tank.mixNodes
    rw [if_neg (by omega), if_neg (by omega)]
    exact ⟨_, rfl⟩
  rw [hT]
  simp only [bind, Except.bind]
  obtain ⟨perf, h1⟩ := he.perf (T s.externalOutlet)
  have h1' := h1
  rw [← hs.2.1] at h1'
  rw [h1']
  simp only [hflow.ne', if_false]
  have hnan : ¬ (Units.W_TO_KW perf.outputPower_W * (a.remaining * Units.secPerMin) >
      a.plant.tank.nodeCp * (Units.W_TO_KW perf.outputPower_W /
        (c.mpFlowRate_LPS * cpWater * rhoWater)) ∧
      Units.W_TO_KW perf.outputPower_W * (a.remaining * Units.secPerMin) = 0) := by
    rintro ⟨h3, h4⟩
    have h5 : a.remaining * Units.secPerMin ≠ 0 := by unfold Units.secPerMin; positivity
    have h6 : Units.W_TO_KW perf.outputPower_W = 0 := (mul_eq_zero.mp h4).resolve_right h5
    rw [h6] at h3
    simp at h3
  rw [if_neg hnan]
  apply extFinishPass_ok
  have hs' : p.SameSettings { a.plant with tank := { a.plant.tank with nodeTs := T } } := by
    obtain ⟨a1, a2, a3, a4, a5⟩ := hs
    exact ⟨by rw [a1], a2, a3, a4, a5⟩
  exact he.soc.congr hs'

/-- Multi-pass heating returns after at most `⌈60 · flow · period / node volume⌉ + 1` passes. -/
theorem mpLoop_terminates (s : SourceCfg n k) (c : CondCfg) (externalT period : ℚ) (p : Plant n)
    (hv : p.tank.volume_L ≠ 0) (hV : 0 < p.tank.nodeVolume_L)
    (hcpV : p.tank.nodeCp = cpWater * rhoWater * p.tank.nodeVolume_L)
    (hoi : s.externalOutlet ≤ s.externalInlet) (hmp : c.isMultipass = true)
    (hflow : 0 < c.mpFlowRate_LPS) (he : Evaluable s c externalT p) :
    ∀ (fuel : ℕ) (a : ExtState n), ExtInv s c externalT period p a → 0 < a.remaining →
      60 * c.mpFlowRate_LPS * a.remaining ≤ fuel * p.tank.nodeVolume_L →
      ∃ a', mpLoop s c externalT fuel a = .ok a' := by
  intro fuel
  induction fuel with
  | zero =>
    intro a _ hrem h
    exfalso
    have : 0 < 60 * c.mpFlowRate_LPS * a.remaining := by positivity
    simp at h
    linarith
  | succ fuel ih =>
    intro a inv hrem h
    obtain ⟨b, hb⟩ := mpPass_ok s c externalT p a he inv.same hflow hrem
    obtain ⟨ib, hprog⟩ := mpPass_inv s c externalT period p a b hv hV hcpV hoi hmp hflow
      he.pos inv hb
    rw [mpLoop, hb]
    simp only [bind, Except.bind]
    split_ifs with hpos
    · obtain ⟨off, hoff⟩ := shutsOff_ok s b.plant fun l hl => (he.logics l hl).congr ib.same
      rw [hoff]
      cases off with
      | true => exact ⟨b, rfl⟩
      | false =>
        simp only [Bool.false_eq_true, if_false]
        apply ih b ib hpos
        rw [hprog hpos]
        push_cast at h
        have : 60 * c.mpFlowRate_LPS * (p.tank.nodeVolume_L / (60 * c.mpFlowRate_LPS)) =
            p.tank.nodeVolume_L := by field_simp
        rw [mul_sub, this]
        linarith
    · exact ⟨b, rfl⟩

/-! ## The pass limit is irrelevant -/

theorem spLoop_mono (s : SourceCfg n k) (c : CondCfg) (externalT : ℚ) :
    ∀ (f g : ℕ) (a a' : ExtState n), f ≤ g → spLoop s c externalT f a = .ok a' →
      spLoop s c externalT g a = .ok a' := by
  intro f
  induction f with
  | zero => intro g a a' _ h; exact absurd h (by simp [spLoop])
  | succ f ih =>
    intro g a a' hfg h
    obtain ⟨g, rfl⟩ : ∃ g', g = g' + 1 := ⟨g - 1, by omega⟩
    rw [spLoop, bind_ok_iff] at h ⊢
    obtain ⟨r, hr, h⟩ := h
    refine ⟨r, hr, ?_⟩
    cases r with
    | none => exact h
    | some b =>
      simp only at h ⊢
      split_ifs at h ⊢ with hb
      · rw [bind_ok_iff] at h ⊢
        obtain ⟨off, hoff, h⟩ := h
        refine ⟨off, hoff, ?_⟩
        cases off with
        | true => exact h
        | false =>
          simp only [Bool.false_eq_true, if_false] at h ⊢
          exact ih g b a' (by omega) h
      · exact h

theorem mpLoop_mono (s : SourceCfg n k) (c : CondCfg) (externalT : ℚ) :
    ∀ (f g : ℕ) (a a' : ExtState n), f ≤ g → mpLoop s c externalT f a = .ok a' →
      mpLoop s c externalT g a = .ok a' := by
  intro f
  induction f with
  | zero => intro g a a' _ h; exact absurd h (by simp [mpLoop])
  | succ f ih =>
    intro g a a' hfg h
    obtain ⟨g, rfl⟩ : ∃ g', g = g' + 1 := ⟨g - 1, by omega⟩
    rw [mpLoop, bind_ok_iff] at h ⊢
    obtain ⟨b, hr, h⟩ := h
    refine ⟨b, hr, ?_⟩
    split_ifs at h ⊢ with hb
    · rw [bind_ok_iff] at h ⊢
      obtain ⟨off, hoff, h⟩ := h
      refine ⟨off, hoff, ?_⟩
      cases off with
      | true => exact h
      | false =>
        simp only [Bool.false_eq_true, if_false] at h ⊢
        exact ih g b a' (by omega) h
    · exact h

theorem addHeatExternal_mono (f g : ℕ) (hfg : f ≤ g) (s : SourceCfg n k) (c : CondCfg)
    (p : Plant n) (externalT period : ℚ) (r : ℚ × Plant n × Perf)
    (h : addHeatExternal f s c p externalT period = .ok r) :
    addHeatExternal g s c p externalT period = .ok r := by
  unfold addHeatExternal at h ⊢
  dsimp only at h ⊢
  cases hm : c.isMultipass with
  | true =>
    simp only [hm, if_true] at h ⊢
    rw [bind_ok_iff] at h ⊢
    obtain ⟨a, ha, h⟩ := h
    exact ⟨a, mpLoop_mono s c externalT f g _ _ hfg ha, h⟩
  | false =>
    simp only [hm, Bool.false_eq_true, if_false] at h ⊢
    rw [bind_ok_iff] at h ⊢
    obtain ⟨a, ha, h⟩ := h
    exact ⟨a, spLoop_mono s c externalT f g _ _ hfg ha, h⟩

theorem externalAddHeat_mono (f g : ℕ) (hfg : f ≤ g) (s : SourceCfg n k) (c : CondCfg)
    (p : Plant n) (st : SourceState) (externalT minutes : ℚ) (r : Plant n × SourceState)
    (h : externalAddHeat f s c p st externalT minutes = .ok r) :
    externalAddHeat g s c p st externalT minutes = .ok r := by
  unfold externalAddHeat at h ⊢
  rw [bind_ok_iff] at h ⊢
  obtain ⟨a, ha, h⟩ := h
  exact ⟨a, addHeatExternal_mono f g hfg s c p externalT minutes a ha, h⟩

/-- Energy and run time reported after external heating. -/
theorem extFinish_spec (s : SourceCfg n k) (c : CondCfg) (externalT period : ℚ) (p : Plant n)
    (a : ExtState n) (inv : ExtInv s c externalT period p a)
    (st : SourceState) :
    let r := extFinish period a
    let st' : SourceState := { st with
      runtime_min := r.1
      energyInput_kWh := st.energyInput_kWh + Units.W_TO_KW r.2.2.inputPower_W * (r.1 / Units.minPerHr)
      energyOutput_kWh :=
        st.energyOutput_kWh + Units.W_TO_KW r.2.2.outputPower_W * (r.1 / Units.minPerHr) }
    0 ≤ st'.runtime_min ∧ st'.runtime_min ≤ period ∧
    p.tank.nodeCp * ∑ j, r.2.1.tank.nodeTs j = p.tank.nodeCp * ∑ j, p.tank.nodeTs j +
      3600 * (st'.energyOutput_kWh - st.energyOutput_kWh) ∧
    r.2.1.tank.nodeTs = a.plant.tank.nodeTs ∧ p.SameSettings r.2.1 ∧
    (∀ lo hi : ℚ, (∀ w perf, p.MayDraw c w →
      c.getPerformance s.airflowFreedom p.setpoint externalT w = .ok perf → lo ≤ perf.inputPower_W ∧ perf.inputPower_W ≤ hi) →
      (lo + c.extraPumpPower_W) / 1000 * (st'.runtime_min / 60) ≤
        st'.energyInput_kWh - st.energyInput_kWh ∧
      st'.energyInput_kWh - st.energyInput_kWh ≤
        (hi + c.extraPumpPower_W) / 1000 * (st'.runtime_min / 60)) ∧
    (∀ lo : ℚ, (∀ w perf, p.MayDraw c w →
      c.getPerformance s.airflowFreedom p.setpoint externalT w = .ok perf → lo ≤ perf.outputPower_W) →
      lo / 1000 * (st'.runtime_min / 60) ≤ st'.energyOutput_kWh - st.energyOutput_kWh) ∧
    (∀ hi : ℚ, (∀ w perf, p.MayDraw c w →
      c.getPerformance s.airflowFreedom p.setpoint externalT w = .ok perf → perf.outputPower_W ≤ hi) →
      st'.energyOutput_kWh - st.energyOutput_kWh ≤ hi / 1000 * (st'.runtime_min / 60)) := by
  intro r st'
  have hle := inv.le
  have hnn := inv.nonneg
  have hr1 : r.1 = period - a.remaining := by
    simp only [r, extFinish]; split_ifs <;> rfl
  have hT : r.2.1.tank = a.plant.tank := by
    simp only [r, extFinish]; split_ifs <;> rfl
  have hsame : p.SameSettings r.2.1 := by
    obtain ⟨a1, a2, a3, a4, a5⟩ := inv.same
    refine ⟨by rw [hT]; exact a1, ?_, ?_, ?_, ?_⟩ <;>
    · simp only [r, extFinish]; split_ifs <;> assumption
  have hout : r.2.2.outputPower_W * r.1 = a.net.outputPower_W := by
    rw [hr1]
    simp only [r, extFinish]
    split_ifs with hpos
    · simp only; field_simp
    · have h0 : a.remaining = period := by linarith
      simp only
      rw [inv.none_out h0]; ring
  have hin : r.2.2.inputPower_W * r.1 = a.net.inputPower_W := by
    rw [hr1]
    simp only [r, extFinish]
    split_ifs with hpos
    · simp only; field_simp
    · have h0 : a.remaining = period := by linarith
      simp only
      rw [inv.none_in h0]; ring
  refine ⟨?_, ?_, ?_, by rw [hT], hsame, ?_, ?_, ?_⟩
  · change 0 ≤ r.1
    rw [hr1]; linarith
  · change r.1 ≤ period
    rw [hr1]; linarith
  · rw [hT, inv.energy, ← hout]
    simp only [st', Units.W_TO_KW, Units.minPerHr]
    ring
  · intro lo hi hb
    obtain ⟨i1, i2⟩ := inv.input lo hi hb
    rw [← hr1, ← hin] at i1 i2
    have e : st'.energyInput_kWh - st.energyInput_kWh = r.2.2.inputPower_W * r.1 / 60000 := by
      simp only [st', Units.W_TO_KW, Units.minPerHr]
      ring
    rw [e]
    change (lo + c.extraPumpPower_W) / 1000 * (r.1 / 60) ≤ _ ∧ _ ≤
      (hi + c.extraPumpPower_W) / 1000 * (r.1 / 60)
    constructor <;> linarith
  · intro lo hb
    have i1 := inv.output.1 lo hb
    rw [← hr1, ← hout] at i1
    have e : st'.energyOutput_kWh - st.energyOutput_kWh = r.2.2.outputPower_W * r.1 / 60000 := by
      simp only [st', Units.W_TO_KW, Units.minPerHr]
      ring
    rw [e]
    change lo / 1000 * (r.1 / 60) ≤ _
    linarith
  · intro hi hb
    have i1 := inv.output.2 hi hb
    rw [← hr1, ← hout] at i1
    have e : st'.energyOutput_kWh - st.energyOutput_kWh = r.2.2.outputPower_W * r.1 / 60000 := by
      simp only [st', Units.W_TO_KW, Units.minPerHr]
      ring
    rw [e]
    change _ ≤ hi / 1000 * (r.1 / 60)
    linarith

end HPWH
