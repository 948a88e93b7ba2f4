import Verif.Lemmas.ScaleTank

/-! # Lemmas: heat sources that are `a` times as large act alike on a tank that is -/

namespace HPWH

open _root_.HPWH.Units

variable {n k : ℕ}

/-! ## Control logic -/

theorem Plant.scale_updateSoC (a : ℚ) (p : Plant n) :
    (p.scale a).updateSoC = Except.map (Plant.scale a) p.updateSoC := by
  unfold Plant.updateSoC
  have e : (p.scale a).socControl = p.socControl := rfl
  rw [e]
  cases p.socControl with
  | none => rfl
  | some c =>
    have e2 : calcSoCFraction (p.scale a).tank.nodeTs ((p.scale a).mainsT c.useConstantMains c.constantMains)
        c.tempMinUseful (p.scale a).setpoint
      = calcSoCFraction p.tank.nodeTs (p.mainsT c.useConstantMains c.constantMains) c.tempMinUseful p.setpoint := rfl
    simp only [e2]
    cases calcSoCFraction p.tank.nodeTs (p.mainsT c.useConstantMains c.constantMains) c.tempMinUseful p.setpoint <;>
      rfl

theorem anyHolds_scale (a : ℚ) (p : Plant n) (ls : List Logic) : anyHolds (p.scale a) ls = anyHolds p ls := by
  induction ls with
  | nil => rfl
  | cons l ls ih =>
    rw [anyHolds, anyHolds, ih]
    rfl

namespace SourceCfg

theorem scale_shutsOff (a : ℚ) (s : SourceCfg n k) (p : Plant n) :
    (s.scale a).shutsOff (p.scale a) = s.shutsOff p := by
  unfold shutsOff
  rw [anyHolds_scale]
  rfl

theorem scale_shouldHeatLoop (a : ℚ) (s : SourceCfg n k) (p : Plant n) (ls : List Logic) :
    (s.scale a).shouldHeatLoop (p.scale a) ls = s.shouldHeatLoop p ls := by
  induction ls with
  | nil => rfl
  | cons l ls ih =>
    rw [shouldHeatLoop, shouldHeatLoop, ih]
    rfl

theorem scale_shouldHeat (a : ℚ) (s : SourceCfg n k) (p : Plant n) :
    (s.scale a).shouldHeat (p.scale a) = s.shouldHeat p := by
  unfold shouldHeat
  rw [scale_shouldHeatLoop, scale_shutsOff]
  rfl

theorem fractToMeetLoop_scale (a : ℚ) (p : Plant n) (ls : List Logic) (f : ℚ) :
    fractToMeetLoop (p.scale a) ls f = fractToMeetLoop p ls f := by
  induction ls generalizing f with
  | nil => rfl
  | cons l ls ih =>
    rw [fractToMeetLoop, fractToMeetLoop]
    simp only [ih]
    rfl

theorem scale_fractToMeet (a : ℚ) (s : SourceCfg n k) (p : Plant n) :
    (s.scale a).fractToMeet (p.scale a) = s.fractToMeet p := fractToMeetLoop_scale a p _ _

theorem scale_tankTemp (a : ℚ) (s : SourceCfg n k) (p : Plant n) :
    (s.scale a).tankTemp (p.scale a) = s.tankTemp p := rfl

theorem scale_maxedOut (a : ℚ) (s : SourceCfg n k) (p : Plant n) :
    (s.scale a).maxedOut (p.scale a) = s.maxedOut p := by
  unfold maxedOut
  rw [scale_shutsOff]
  have e : (s.scale a).kind = s.kind.scale a := rfl
  rw [e]
  cases s.kind <;> rfl

end SourceCfg

/-! ## Heating -/

theorem heatLoop_scale {a : ℚ} (ha : 0 < a) (offered cap maxW : ℚ) (dist : Nodes n ℚ) (i : ℕ) (hi : i ≤ n + 1)
    (lo : ℚ) (t : Tank n) :
    heatLoop (a * offered) cap maxW dist i hi (a * lo) (t.scale a)
      = (a * (heatLoop offered cap maxW dist i hi lo t).1, (heatLoop offered cap maxW dist i hi lo t).2.scale a) := by
  induction i generalizing lo t with
  | zero => rfl
  | succ i ih =>
    rw [heatLoop, heatLoop]
    have e1 : (1 - dist ⟨i, by omega⟩ / maxW) ^ 2 * (a * lo) = a * ((1 - dist ⟨i, by omega⟩ / maxW) ^ 2 * lo) := by
      ring
    have e2 : dist ⟨i, by omega⟩ * (a * offered) = a * (dist ⟨i, by omega⟩ * offered) := by ring
    simp only [e1, e2, ← mul_sub, ← mul_add, gt_iff_lt, mul_pos_same ha, Tank.scale_addHeatAboveNode ha, ih]
    split_ifs <;> rfl

theorem heat_scale {a : ℚ} (ha : 0 < a) (t : Tank n) (setpoint : ℚ) (dist : Nodes n ℚ) (offered maxT : ℚ) :
    heat (t.scale a) setpoint dist (a * offered) maxT
      = Except.map (fun r => (a * r.1, r.2.scale a)) (heat t setpoint dist offered maxT) := by
  unfold heat
  have := heatLoop_scale ha offered (min maxT setpoint) (maxWeight dist) dist (n + 1) le_rfl 0 t
  rw [mul_zero] at this
  rw [this]
  split_ifs <;> rfl

/-- Both results of a heat source, enlarged. -/
def scaleBoth (a : ℚ) (r : Plant n × SourceState) : Plant n × SourceState := (r.1.scale a, r.2.scale a)

theorem resistanceAddHeat_scale {a : ℚ} (ha : 0 < a) (s : SourceCfg n k) (power : ℚ) (p : Plant n)
    (st : SourceState) (minutes : ℚ) :
    resistanceAddHeat (s.scale a) (a * power) (p.scale a) (st.scale a) minutes
      = Except.map (scaleBoth a) (resistanceAddHeat s power p st minutes) := by
  unfold resistanceAddHeat
  have e0 : (s.scale a).heatDist = s.heatDist := rfl
  have e1 : (p.scale a).tank = p.tank.scale a := rfl
  have e2 : (p.scale a).setpoint = p.setpoint := rfl
  have e3 : a * power * (minutes * secPerMin) = a * (power * (minutes * secPerMin)) := by ring
  simp only [e0, e1, e2, e3, heat_scale ha, res_map_bind, res_bind_map, mul_div_same ha, mul_zero_same ha]
  refine res_bind_congr fun dist => res_bind_congr fun r => ?_
  split_ifs
  · rfl
  · rfl
  · refine congrArg Except.ok ?_
    simp only [scaleBoth, Plant.scale, SourceState.scale, Prod.mk.injEq, true_and, SourceState.mk.injEq]
    constructor <;> ring

/-! ## Heat pumps -/

theorem CondCfg.scale_getPerformance {a : ℚ} (ha : 0 < a) (c : CondCfg) (airflow setpoint air water : ℚ) :
    (c.scale a).getPerformance airflow setpoint air water
      = Except.map (Perf.scale a) (c.getPerformance airflow setpoint air water) := by
  unfold CondCfg.getPerformance
  have e1 : (c.scale a).coldSideOffset = c.coldSideOffset := rfl
  have e2 : (c.scale a).resDefrostPower_kW = a * c.resDefrostPower_kW := rfl
  have e3 : (c.scale a).resDefrostOnBelow_F = c.resDefrostOnBelow_F := rfl
  have e4 : (c.scale a).resDefrostLift_dF = c.resDefrostLift_dF := rfl
  have e5 : (c.scale a).doDefrost = c.doDefrost := rfl
  have e6 : (c.scale a).defrostMap = c.defrostMap := rfl
  have e7 : ∀ x y z, (c.scale a).evaluate x y z = (c.evaluate x y z).scale a := fun _ _ _ => rfl
  have e8 : (c.scale a).inputPowerScale = c.inputPowerScale := rfl
  have e9 : (c.scale a).copScale = c.copScale := rfl
  simp only [e1, e2, e3, e4, e5, e6, e7, e8, e9, gt_iff_lt, mul_pos_same ha]
  cases c.doDefrost with
  | false =>
    simp only [Bool.false_eq_true, if_false]
    refine congrArg Except.ok ?_
    simp only [Perf.scale, KW_TO_W, Perf.mk.injEq]
    refine ⟨?_, ?_, trivial⟩ <;> split_ifs <;> ring
  | true =>
    simp only [if_true]
    rw [res_map_bind]
    refine res_bind_congr fun f => ?_
    refine congrArg Except.ok ?_
    simp only [Perf.scale, KW_TO_W, Perf.mk.injEq]
    refine ⟨?_, ?_, trivial⟩ <;> split_ifs <;> ring

theorem condenserHeatDist_scale (exp : ℚ → ℚ) (a : ℚ) (s : SourceCfg n k) (c : CondCfg) (p : Plant n) :
    condenserHeatDist exp (s.scale a) (c.scale a) (p.scale a) = condenserHeatDist exp s c p := rfl

theorem internalAddHeat_scale (exp : ℚ → ℚ) {a : ℚ} (ha : 0 < a) (s : SourceCfg n k) (c : CondCfg) (p : Plant n)
    (st : SourceState) (air minutes : ℚ) :
    internalAddHeat exp (s.scale a) (c.scale a) (p.scale a) (st.scale a) air minutes
      = Except.map (scaleBoth a) (internalAddHeat exp s c p st air minutes) := by
  unfold internalAddHeat
  have e0 : (s.scale a).airflowFreedom = s.airflowFreedom := rfl
  have e1 : (p.scale a).tank = p.tank.scale a := rfl
  have e2 : (p.scale a).setpoint = p.setpoint := rfl
  have e3 : ∀ x : Perf, W_TO_KW (x.scale a).outputPower_W * (60 * minutes)
      = a * (W_TO_KW x.outputPower_W * (60 * minutes)) := fun x => by
    simp only [Perf.scale, W_TO_KW]; ring
  have e4 : (c.scale a).maxSetpoint = c.maxSetpoint := rfl
  simp only [e0, e1, e2, e3, e4, SourceCfg.scale_tankTemp, CondCfg.scale_getPerformance ha, condenserHeatDist_scale,
    res_map_bind, res_bind_map, heat_scale ha, mul_div_same ha, mul_zero_same ha]
  refine res_bind_congr fun inlet => res_bind_congr fun perf => res_bind_congr fun dist => res_bind_congr fun r => ?_
  split_ifs
  · rfl
  · rfl
  · rw [res_map_bind]
    refine res_bind_congr fun outlet => congrArg Except.ok ?_
    simp only [scaleBoth, Plant.scale, SourceState.scale, Perf.scale, W_TO_KW, Prod.mk.injEq, true_and,
      SourceState.mk.injEq]
    constructor <;> ring

/-- The state of external heating, enlarged. -/
def ExtState.scale (a : ℚ) (x : ExtState n) : ExtState n :=
  { plant := x.plant.scale a, remaining := x.remaining, net := x.net.scale a }

theorem extFinishPass_scale {a : ℚ} (ha : 0 < a) (s : SourceCfg n k) (c : CondCfg) (p : Plant n) (net perf : Perf)
    (frac target time remaining : ℚ) :
    extFinishPass (s.scale a) (c.scale a) (p.scale a) (net.scale a) (perf.scale a) frac target time remaining
      = Except.map (ExtState.scale a) (extFinishPass s c p net perf frac target time remaining) := by
  unfold extFinishPass
  have e := Plant.scale_updateSoC a ({ p with
    tank := ({ p.tank with nodeTs := shiftNodes p.tank.nodeTs s.externalOutlet s.externalInlet frac target } :
      Tank n).mixInversions
    condenserInlet := p.condenserInlet + p.tank.nodeTs s.externalOutlet * time
    condenserOutlet := p.condenserOutlet + target * time } : Plant n)
  simp only [Plant.scale, ← Tank.scale_mixInversions ha] at e
  rw [res_map_bind]
  refine (congrArg (· >>= _) e).trans ?_
  rw [res_bind_map]
  refine res_bind_congr fun p1 => congrArg Except.ok ?_
  simp only [ExtState.scale, Plant.scale, Perf.scale, CondCfg.scale, Tank.scale, ExtState.mk.injEq, true_and,
    Plant.mk.injEq, Perf.mk.injEq, and_true]
  refine ⟨?_, ?_, ?_⟩ <;> ring

theorem spPass_scale {a : ℚ} (ha : 0 < a) (s : SourceCfg n k) (c : CondCfg) (air : ℚ) (x : ExtState n) :
    spPass (s.scale a) (c.scale a) air (x.scale a)
      = Except.map (Option.map (ExtState.scale a)) (spPass s c air x) := by
  unfold spPass
  have e0 : (s.scale a).airflowFreedom = s.airflowFreedom := rfl
  have e1 : (x.scale a).plant = x.plant.scale a := rfl
  have e2 : (x.plant.scale a).setpoint = x.plant.setpoint := rfl
  have e3 : ∀ y : Perf, W_TO_KW (y.scale a).outputPower_W * (x.remaining * secPerMin)
      = a * (W_TO_KW y.outputPower_W * (x.remaining * secPerMin)) := fun y => by
    simp only [Perf.scale, W_TO_KW]; ring
  have e4 : (c.scale a).maxSetpoint = c.maxSetpoint := rfl
  have e5 : (x.plant.scale a).tank.nodeTs = x.plant.tank.nodeTs := rfl
  have e6 : (s.scale a).externalOutlet = s.externalOutlet := rfl
  have e7 : (x.scale a).remaining = x.remaining := rfl
  have e8 : ∀ d, (x.plant.scale a).tank.nodeCp * d = a * (x.plant.tank.nodeCp * d) := fun d => by
    simp only [Plant.scale, Tank.scale]; ring
  have e9 : (x.scale a).net = x.net.scale a := rfl
  simp only [e0, e1, e2, e3, e4, e5, e6, e7, e8, e9, CondCfg.scale_getPerformance ha, SourceCfg.scale_fractToMeet,
    res_map_bind, res_bind_map]
  refine res_bind_congr fun perf => ?_
  by_cases h : min c.maxSetpoint x.plant.setpoint - x.plant.tank.nodeTs s.externalOutlet ≤ 0
  · simp only [h, if_true]
    rfl
  · simp only [h, if_false]
    rw [res_map_bind]
    refine res_bind_congr fun f => ?_
    generalize W_TO_KW perf.outputPower_W * (x.remaining * secPerMin) = cap
    generalize x.plant.tank.nodeCp * (min c.maxSetpoint x.plant.setpoint - x.plant.tank.nodeTs s.externalOutlet) = heat
    have i1 : ∀ (P : Prop) [Decidable P] (y z : ℚ), (if P then a * y else a * z) = a * (if P then y else z) :=
      fun P _ y z => by split_ifs <;> rfl
    have i2 : f * (a * heat) = a * (f * heat) := by ring
    simp only [mul_lt_same ha, mul_div_same ha, i1, i2, gt_iff_lt, mul_zero_same ha]
    split_ifs
    all_goals first
      | rfl
      | (rw [extFinishPass_scale ha, res_map_bind, res_bind_map]; rfl)

theorem spLoop_scale {a : ℚ} (ha : 0 < a) (s : SourceCfg n k) (c : CondCfg) (air : ℚ) (fuel : ℕ) (x : ExtState n) :
    spLoop (s.scale a) (c.scale a) air fuel (x.scale a) = Except.map (ExtState.scale a) (spLoop s c air fuel x) := by
  induction fuel generalizing x with
  | zero => rfl
  | succ fuel ih =>
    rw [spLoop, spLoop, spPass_scale ha, res_map_bind, res_bind_map]
    refine res_bind_congr fun r => ?_
    cases r with
    | none => rfl
    | some y =>
      have e1 : (y.scale a).plant = y.plant.scale a := rfl
      have e2 : (y.scale a).remaining = y.remaining := rfl
      simp only [Option.map_some, e1, e2, SourceCfg.scale_shutsOff, ih]
      split_ifs
      · rw [res_map_bind]
        refine res_bind_congr fun off => ?_
        split_ifs <;> rfl
      · rfl

theorem mpPass_scale {a : ℚ} (ha : 0 < a) (s : SourceCfg n k) (c : CondCfg) (air : ℚ) (x : ExtState n) :
    mpPass (s.scale a) (c.scale a) air (x.scale a) = Except.map (ExtState.scale a) (mpPass s c air x) := by
  unfold mpPass
  have e0 : (s.scale a).airflowFreedom = s.airflowFreedom := rfl
  have e1 : (x.scale a).plant.tank.nodeTs = x.plant.tank.nodeTs := rfl
  have e2 : (x.scale a).plant.setpoint = x.plant.setpoint := rfl
  have e3 : ∀ y : Perf, W_TO_KW (y.scale a).outputPower_W * (x.remaining * secPerMin)
      = a * (W_TO_KW y.outputPower_W * (x.remaining * secPerMin)) := fun y => by
    simp only [Perf.scale, W_TO_KW]; ring
  have e6 : (s.scale a).externalOutlet = s.externalOutlet := rfl
  have e7 : (x.scale a).remaining = x.remaining := rfl
  have e8 : ∀ d, (x.scale a).plant.tank.nodeCp * d = a * (x.plant.tank.nodeCp * d) := fun d => by
    simp only [ExtState.scale, Plant.scale, Tank.scale]; ring
  have e9 : (x.scale a).net = x.net.scale a := rfl
  have e10 : (c.scale a).mpFlowRate_LPS * (x.remaining * secPerMin) / (x.scale a).plant.tank.nodeVolume_L
      = c.mpFlowRate_LPS * (x.remaining * secPerMin) / x.plant.tank.nodeVolume_L := by
    rw [← mul_div_same ha (c.mpFlowRate_LPS * _)]
    simp only [ExtState.scale, Plant.scale, Tank.scale, CondCfg.scale]
    ring_nf
  have e11 : ∀ y : Perf, W_TO_KW (y.scale a).outputPower_W / ((c.scale a).mpFlowRate_LPS * cpWater * rhoWater)
      = W_TO_KW y.outputPower_W / (c.mpFlowRate_LPS * cpWater * rhoWater) := fun y => by
    rw [← mul_div_same ha (W_TO_KW y.outputPower_W)]
    simp only [Perf.scale, CondCfg.scale, W_TO_KW]
    ring_nf
  have e12 : ((c.scale a).mpFlowRate_LPS = 0) = (c.mpFlowRate_LPS = 0) := propext (mul_zero_same ha _)
  simp only [e0, e1, e2, e3, e6, e7, e8, e9, e10, e11, e12, CondCfg.scale_getPerformance ha,
    res_map_bind, res_bind_map]
  refine res_bind_congr fun T => res_bind_congr fun perf => ?_
  simp only [mul_lt_same ha, mul_div_same ha, gt_iff_lt, mul_zero_same ha]
  split_ifs
  all_goals first
    | rfl
    | exact extFinishPass_scale ha s c ({ x.plant with tank := { x.plant.tank with nodeTs := T } } : Plant n) x.net
        perf _ _ _ _

theorem mpLoop_scale {a : ℚ} (ha : 0 < a) (s : SourceCfg n k) (c : CondCfg) (air : ℚ) (fuel : ℕ) (x : ExtState n) :
    mpLoop (s.scale a) (c.scale a) air fuel (x.scale a) = Except.map (ExtState.scale a) (mpLoop s c air fuel x) := by
  induction fuel generalizing x with
  | zero => rfl
  | succ fuel ih =>
    rw [mpLoop, mpLoop, mpPass_scale ha, res_map_bind, res_bind_map]
    refine res_bind_congr fun y => ?_
    have e1 : (y.scale a).plant = y.plant.scale a := rfl
    have e2 : (y.scale a).remaining = y.remaining := rfl
    simp only [e1, e2, SourceCfg.scale_shutsOff, ih]
    split_ifs
    · rw [res_map_bind]
      refine res_bind_congr fun off => ?_
      split_ifs <;> rfl
    · rfl

theorem extFinish_scale (a : ℚ) (period : ℚ) (x : ExtState n) :
    extFinish period (x.scale a)
      = ((extFinish period x).1, (extFinish period x).2.1.scale a, (extFinish period x).2.2.scale a) := by
  unfold extFinish
  have e2 : (x.scale a).remaining = x.remaining := rfl
  rw [e2]
  dsimp only
  split_ifs
  · simp only [ExtState.scale, Plant.scale, Perf.scale, mul_div_assoc]
  · rfl

theorem addHeatExternal_scale {a : ℚ} (ha : 0 < a) (fuel : ℕ) (s : SourceCfg n k) (c : CondCfg) (p : Plant n)
    (air period : ℚ) :
    addHeatExternal fuel (s.scale a) (c.scale a) (p.scale a) air period
      = Except.map (fun r => (r.1, r.2.1.scale a, r.2.2.scale a)) (addHeatExternal fuel s c p air period) := by
  unfold addHeatExternal
  have e : ({ plant := p.scale a, remaining := period, net := ⟨0, 0, 0⟩ } : ExtState n)
      = ({ plant := p, remaining := period, net := ⟨0, 0, 0⟩ } : ExtState n).scale a := by
    simp only [ExtState.scale, Perf.scale, mul_zero]
  have e2 : (c.scale a).isMultipass = c.isMultipass := rfl
  simp only [e, e2, mpLoop_scale ha, spLoop_scale ha]
  cases c.isMultipass
  · simp only [Bool.false_eq_true, if_false, res_map_bind, res_bind_map, extFinish_scale]; rfl
  · simp only [if_true, res_map_bind, res_bind_map, extFinish_scale]; rfl

theorem externalAddHeat_scale {a : ℚ} (ha : 0 < a) (fuel : ℕ) (s : SourceCfg n k) (c : CondCfg) (p : Plant n)
    (st : SourceState) (air minutes : ℚ) :
    externalAddHeat fuel (s.scale a) (c.scale a) (p.scale a) (st.scale a) air minutes
      = Except.map (scaleBoth a) (externalAddHeat fuel s c p st air minutes) := by
  unfold externalAddHeat
  rw [addHeatExternal_scale ha, res_map_bind, res_bind_map]
  refine res_bind_congr fun r => congrArg Except.ok ?_
  simp only [scaleBoth, SourceState.scale, Perf.scale, W_TO_KW, Prod.mk.injEq, true_and, SourceState.mk.injEq]
  constructor <;> ring

theorem addHeatKind_scale (m : Libm) {a : ℚ} (ha : 0 < a) (fuel : ℕ) (s : SourceCfg n k) (p : Plant n)
    (st : SourceState) (air minutes : ℚ) :
    Sim.addHeatKind m fuel (s.scale a) (p.scale a) (st.scale a) air minutes
      = Except.map (scaleBoth a) (Sim.addHeatKind m fuel s p st air minutes) := by
  unfold Sim.addHeatKind
  have e : (s.scale a).kind = s.kind.scale a := rfl
  rw [e]
  cases s.kind with
  | resistance power => exact resistanceAddHeat_scale ha s power p st minutes
  | condenser c =>
    simp only [SourceKind.scale, condenserAddHeat]
    have e2 : (c.scale a).configuration = c.configuration := rfl
    rw [e2]
    cases c.configuration with
    | external => exact externalAddHeat_scale ha fuel s c p st air minutes
    | submerged => exact internalAddHeat_scale m.exp ha s c p st air minutes
    | wrapped => exact internalAddHeat_scale m.exp ha s c p st air minutes

/-! ## Lock-out -/

theorem toLockOrUnlock_scale (a : ℚ) (s : SourceCfg n k) (c : CondCfg) (st : SourceState) (p : Plant n) (amb : ℚ) :
    toLockOrUnlock (s.scale a) (c.scale a) (st.scale a) (p.scale a) amb
      = Except.map (SourceState.scale a) (toLockOrUnlock s c st p amb) := by
  have lockOut : ∀ st : SourceState, shouldLockOut (s.scale a) (c.scale a) (st.scale a) (p.scale a) amb
      = shouldLockOut s c st p amb := fun st => by
    unfold shouldLockOut
    rw [SourceCfg.scale_maxedOut]
    rfl
  have unlock : ∀ st : SourceState, shouldUnlock (s.scale a) (c.scale a) (st.scale a) (p.scale a) amb
      = shouldUnlock s c st p amb := fun st => by
    unfold shouldUnlock
    rw [SourceCfg.scale_maxedOut]
    rfl
  unfold toLockOrUnlock
  rw [lockOut, res_map_bind]
  refine res_bind_congr fun l => ?_
  have e : (if l = true then { st.scale a with lockedOut := true } else st.scale a)
      = (if l = true then { st with lockedOut := true } else st).scale a := by split_ifs <;> rfl
  simp only [e, unlock]
  rw [res_map_bind]
  refine res_bind_congr fun u => ?_
  cases u <;> rfl

end HPWH
