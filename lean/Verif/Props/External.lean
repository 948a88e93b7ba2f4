import Verif.Props.HeatSource
import Verif.Lemmas.MultiPass
import Mathlib.Algebra.Order.Floor.Semiring
import Mathlib.Data.Rat.Floor

/-! # C16, C17: external heating -/

namespace HPWH

open Spec

variable {n k : ℕ}

/-! ## Samples -/

/-- Shut off when the bottom of the tank is above 50 °C. -/
def sampleShutOff : Logic where
  kind := .temp true .bottom
  decisionPoint := 50
  cmp := .greater
  isEnteringWaterHighTempShutoff := false
  checkStandby := false
  description := ""

/-- An external single-pass condenser: 5 kW in, 15 kW out. -/
def sampleExtCond : CondCfg :=
  { sampleCond with configuration := .external, evaluate := fun _ _ _ => ⟨5000, 15000, 3⟩ }

/-- The condenser heating from the bottom node to the top node. -/
def sampleExt : SourceCfg 3 2 :=
  { sampleElement with kind := .condenser sampleExtCond, shutOff := [sampleShutOff] }

/-- The same condenser as multi-pass. -/
def sampleMpCond : CondCfg := { sampleExtCond with isMultipass := true }

/-- An external source with a given pass limit, as `condenserAddHeat` runs it. -/
theorem condenserAddHeat_external (exp : ℚ → ℚ) (fuel : ℕ) (s : SourceCfg n k) (c : CondCfg)
    (hc : c.configuration = .external) (p : Plant n) (st : SourceState) (externalT minutes : ℚ) :
    condenserAddHeat exp fuel s c p st externalT minutes =
      externalAddHeat fuel s c p st externalT minutes := by
  unfold condenserAddHeat; rw [hc]

/-! ## C16 -/

/-- **C16.** Single-pass external heating for a period, from outlet node to an inlet node that
is not below it, with any performance function of positive output
(at water temperatures between the coldest node and the target), any shut-off logics that do not ask
for a negative fraction, and any number of passes. If it returns: the run time lies between 0 and the
period; the heat content of the tank rises by exactly the output energy (1 kWh = 3600 kJ); the input
energy lies between (lowest, highest) input power plus pump power times run time, the output energy
between (lowest, highest) output power times run time; temperatures stay in
any range that holds the initial temperatures and reaches up to the lower of condenser maximum and
setpoint; and nothing is cooled below the coldest node. -/
theorem C16_single_pass_energy (fuel : ℕ) (s : SourceCfg n k) (c : CondCfg) (p p' : Plant n)
    (st st' : SourceState) (externalT minutes : ℚ) (hmin : 0 ≤ minutes) (ht : p.tank.Consistent)
    (hoi : s.externalOutlet ≤ s.externalInlet) (hsp : c.isMultipass = false)
    (hperf : ∀ water perf, p.MayDraw c water →
      c.getPerformance s.airflowFreedom p.setpoint externalT water = .ok perf → 0 < perf.outputPower_W)
    (hfrac : ∀ q f, p.SameSettings q → (q = p ∨ s.shutsOff q = .ok false) →
      s.fractToMeet q = .ok f → 0 ≤ f)
    (h : externalAddHeat fuel s c p st externalT minutes = .ok (p', st')) :
    0 ≤ st'.runtime_min ∧ st'.runtime_min ≤ minutes ∧
    tankHeat p.tank.volume_L p'.tank.nodeTs = tankHeat p.tank.volume_L p.tank.nodeTs +
      3600 * (st'.energyOutput_kWh - st.energyOutput_kWh) ∧
    (∀ lo hi : ℚ, (∀ water perf, p.MayDraw c water →
      c.getPerformance s.airflowFreedom p.setpoint externalT water = .ok perf → lo ≤ perf.inputPower_W ∧ perf.inputPower_W ≤ hi) →
      (lo + c.extraPumpPower_W) / 1000 * (st'.runtime_min / 60) ≤
        st'.energyInput_kWh - st.energyInput_kWh ∧
      st'.energyInput_kWh - st.energyInput_kWh ≤
        (hi + c.extraPumpPower_W) / 1000 * (st'.runtime_min / 60)) ∧
    (∀ lo hi : ℚ, Within p.tank.nodeTs lo hi → min c.maxSetpoint p.setpoint ≤ hi →
      Within p'.tank.nodeTs lo hi) ∧
    (p'.setpoint = p.setpoint ∧ p'.tank = { p.tank with nodeTs := p'.tank.nodeTs }) ∧
    (st'.isOn = st.isOn ∧ st'.lockedOut = st.lockedOut) ∧
    (∀ lo : ℚ, (∀ water perf, p.MayDraw c water →
      c.getPerformance s.airflowFreedom p.setpoint externalT water = .ok perf → lo ≤ perf.outputPower_W) →
      lo / 1000 * (st'.runtime_min / 60) ≤ st'.energyOutput_kWh - st.energyOutput_kWh) ∧
    (∀ hi : ℚ, (∀ water perf, p.MayDraw c water →
      c.getPerformance s.airflowFreedom p.setpoint externalT water = .ok perf → perf.outputPower_W ≤ hi) →
      st'.energyOutput_kWh - st.energyOutput_kWh ≤ hi / 1000 * (st'.runtime_min / 60)) := by
  unfold externalAddHeat at h
  rw [bind_ok_iff] at h
  obtain ⟨r, hr, h⟩ := h
  unfold addHeatExternal at hr
  simp only [hsp, Bool.false_eq_true, if_false] at hr
  rw [bind_ok_iff] at hr
  obtain ⟨a, ha, hr⟩ := hr
  have hr := (Except.ok.inj hr).symm
  have h := (Except.ok.inj h).symm
  obtain ⟨rfl, rfl⟩ := Prod.mk.inj h
  have inv := spLoop_inv s c externalT minutes p ht.nodeCp_pos ht.volume_pos.ne' hoi hperf hsp
    (fun q f h1 h2 h3 => hfrac q f h1 (Or.inr h2) h3) fuel _ a
    (fun f hf => hfrac p f (.refl p) (Or.inl rfl) hf) (.init s c externalT minutes p hmin) ha
  have spec := extFinish_spec s c externalT minutes p a inv st
  rw [← hr] at spec
  obtain ⟨s1, s2, s3, s4, s5, s6, s7⟩ := spec
  refine ⟨s1, s2, ?_, s6, ?_, ⟨s5.2.1, s5.1⟩, ⟨rfl, rfl⟩, s7⟩
  · rw [ht.tankHeat_eq, ht.tankHeat_eq]
    exact s3
  · intro lo hi hT hm j
    rw [s4]
    exact inv.bounds hsp lo hi hT hm j

/-- **C16**, which shut-off logics qualify: all that shut off *above* a limit of temperature, or of
state of charge with the mains colder than the minimum useful temperature, for a source that is not
shut off yet; temperature logics alone qualify whether or not the source is shut off. -/
theorem C16_upper_limits_qualify (s : SourceCfg n k) (p : Plant n)
    (hl : ∀ l ∈ s.shutOff, l.ShutsOffAbove p)
    (hstart : s.shutsOff p = .ok false ∨ ∀ l ∈ s.shutOff, ∃ a d, l.kind = .temp a d) (q : Plant n)
    (f : ℚ) (hq : p.SameSettings q) (hoff : q = p ∨ s.shutsOff q = .ok false)
    (h : s.fractToMeet q = .ok f) : 0 ≤ f := by
  have hl' : ∀ l ∈ s.shutOff, l.ShutsOffAbove q := fun l hl' => (hl l hl').congr hq
  by_cases hoff' : s.shutsOff q = .ok false
  · exact fractToMeet_nonneg s q hl' hoff' h
  · have hqp := hoff.resolve_right hoff'
    rcases hstart with hs | hs
    · rw [hqp] at hoff'
      exact absurd hs hoff'
    · refine fractToMeetLoop_nonneg q _ 1 f (by norm_num) (fun l hl'' g hg => ?_) h
      obtain ⟨a, d, hk⟩ := hs l hl''
      exact UpperLimit.fract_nonneg ⟨(hl' l hl'').1, a, d, hk⟩ q hg

example : samplePlant.tank.Consistent ∧ sampleExt.externalOutlet ≤ sampleExt.externalInlet ∧
    (∀ l ∈ sampleExt.shutOff, l.ShutsOffAbove samplePlant) ∧
    sampleExt.shutsOff samplePlant = .ok false ∧
    ∃ r, condenserAddHeat (fun _ => 1) 4 sampleExt sampleExtCond samplePlant sampleState 20 10 =
      .ok r ∧ 0 < r.2.runtime_min ∧ 0 < r.2.energyOutput_kWh ∧
      r.2.energyOutput_kWh = 3 * r.2.energyInput_kWh := by
  refine ⟨warmTank_wellFormed.toConsistent, ?_, ?_, ?_⟩
  · decide +kernel
  · intro l hl
    have : l = sampleShutOff := by simpa [sampleExt] using hl
    rw [this]
    exact ⟨rfl, trivial⟩
  · decide +kernel

example (w : ℚ) (perf : Perf)
    (h : sampleExtCond.getPerformance sampleExt.airflowFreedom samplePlant.setpoint 20 w = .ok perf) :
    0 < perf.outputPower_W := by
  have : perf = ⟨5000, 15000, 3⟩ := by
    rw [← Except.ok.inj h]
    norm_num [sampleExtCond, sampleCond, sampleExt, sampleElement]
  rw [this]; norm_num

/-- Finding: with the outlet node above the inlet node — the library accepts such heights — the
reported output energy is not stored: the tank is unchanged. -/
theorem C16_outlet_above_inlet_loses_energy :
    ∃ r, externalAddHeat 5 { sampleExt with externalOutlet := 2, externalInlet := 0 }
        sampleExtCond samplePlant sampleState 20 2 = .ok r ∧
      (∀ j, r.1.tank.nodeTs j = samplePlant.tank.nodeTs j) ∧ 0 < r.2.energyOutput_kWh := by
  decide +kernel

/-! ## C17 -/

/-- **C17.** Multi-pass external heating for a positive period, from outlet node to an inlet node that
is not below it, with a positive flow rate and any performance function of positive output (at water
temperatures not below the coldest node). It returns, after at most (60 · flow rate · minutes) / (node volume) passes rounded up: every larger pass
limit gives the same result. The run time lies between 0 and the period; the heat content of the tank
rises by exactly the output energy; the input energy lies between (lowest, highest) input power plus
pump power times run time, the output energy between (lowest, highest) output power times run time; and no node is cooled below the coldest node. -/
theorem C17_multi_pass_energy (s : SourceCfg n k) (c : CondCfg) (p : Plant n)
    (st : SourceState) (externalT minutes : ℚ) (hmin : 0 < minutes) (ht : p.tank.Consistent)
    (hoi : s.externalOutlet ≤ s.externalInlet) (hmp : c.isMultipass = true)
    (hflow : 0 < c.mpFlowRate_LPS)
    (hok : ∀ water, ∃ perf, c.getPerformance s.airflowFreedom p.setpoint externalT water = .ok perf)
    (hperf : ∀ water perf, p.MayDraw c water →
      c.getPerformance s.airflowFreedom p.setpoint externalT water = .ok perf → 0 < perf.outputPower_W)
    (hlogics : ∀ l ∈ s.shutOff, l.Usable p) (hsoc : p.SoCUsable) :
    ∃ p' st',
      (∀ fuel : ℕ, 60 * c.mpFlowRate_LPS * minutes ≤ fuel * (p.tank.volume_L / (n + 1)) →
        externalAddHeat fuel s c p st externalT minutes = .ok (p', st')) ∧
      0 ≤ st'.runtime_min ∧ st'.runtime_min ≤ minutes ∧
      tankHeat p.tank.volume_L p'.tank.nodeTs = tankHeat p.tank.volume_L p.tank.nodeTs +
        3600 * (st'.energyOutput_kWh - st.energyOutput_kWh) ∧
      (∀ lo hi : ℚ, (∀ water perf, p.MayDraw c water →
        c.getPerformance s.airflowFreedom p.setpoint externalT water = .ok perf → lo ≤ perf.inputPower_W ∧ perf.inputPower_W ≤ hi) →
        (lo + c.extraPumpPower_W) / 1000 * (st'.runtime_min / 60) ≤
          st'.energyInput_kWh - st.energyInput_kWh ∧
        st'.energyInput_kWh - st.energyInput_kWh ≤
          (hi + c.extraPumpPower_W) / 1000 * (st'.runtime_min / 60)) ∧
      (∀ lo : ℚ, (∀ j, lo ≤ p.tank.nodeTs j) → ∀ j, lo ≤ p'.tank.nodeTs j) ∧
      (p'.setpoint = p.setpoint ∧ p'.tank = { p.tank with nodeTs := p'.tank.nodeTs }) ∧
      (st'.isOn = st.isOn ∧ st'.lockedOut = st.lockedOut) ∧
      (∀ lo : ℚ, (∀ water perf, p.MayDraw c water →
        c.getPerformance s.airflowFreedom p.setpoint externalT water = .ok perf → lo ≤ perf.outputPower_W) →
        lo / 1000 * (st'.runtime_min / 60) ≤ st'.energyOutput_kWh - st.energyOutput_kWh) ∧
      (∀ hi : ℚ, (∀ water perf, p.MayDraw c water →
        c.getPerformance s.airflowFreedom p.setpoint externalT water = .ok perf → perf.outputPower_W ≤ hi) →
        st'.energyOutput_kWh - st.energyOutput_kWh ≤ hi / 1000 * (st'.runtime_min / 60)) := by
  have hv := ht.volume_pos.ne'
  have hV := ht.nodeVolume_pos
  have he : Evaluable s c externalT p := ⟨hok, hperf, hlogics, hsoc⟩
  have hnv : p.tank.nodeVolume_L = p.tank.volume_L / (n + 1) := by
    rw [ht.nodeVolume]; unfold Tank.numNodes; rfl
  have init := ExtInv.init s c externalT minutes p hmin.le
  have term := fun fuel (hf : 60 * c.mpFlowRate_LPS * minutes ≤ (fuel : ℕ) * p.tank.nodeVolume_L) =>
    mpLoop_terminates s c externalT minutes p hv hV ht.nodeCp hoi hmp hflow he fuel _ init hmin hf
  obtain ⟨N, hN⟩ : ∃ N : ℕ, 60 * c.mpFlowRate_LPS * minutes / p.tank.nodeVolume_L ≤ N :=
    ⟨_, Nat.le_ceil _⟩
  have hN' : 60 * c.mpFlowRate_LPS * minutes ≤ N * p.tank.nodeVolume_L := (div_le_iff₀ hV).mp hN
  obtain ⟨a, ha⟩ := term N hN'
  have inv := mpLoop_inv s c externalT minutes p hv hV ht.nodeCp hoi hmp hflow he.pos N _ a init
    ha
  have spec := extFinish_spec s c externalT minutes p a inv st
  obtain ⟨s1, s2, s3, s4, s5, s6, s7⟩ := spec
  refine ⟨_, _, fun fuel hfuel => ?_, s1, s2, ?_, s6, ?_, ⟨s5.2.1, s5.1⟩, ⟨rfl, rfl⟩, s7⟩
  · rw [← hnv] at hfuel
    obtain ⟨a', ha'⟩ := term fuel hfuel
    have : a' = a := by
      have h1 := mpLoop_mono s c externalT fuel (max fuel N) _ _ (le_max_left _ _) ha'
      have h2 := mpLoop_mono s c externalT N (max fuel N) _ _ (le_max_right _ _) ha
      rw [h1] at h2
      exact Except.ok.inj h2
    rw [this] at ha'
    unfold externalAddHeat addHeatExternal
    simp only [hmp, if_true, ha']
    rfl
  · rw [ht.tankHeat_eq, ht.tankHeat_eq]
    exact s3
  · intro lo hlo j
    rw [s4]
    exact inv.lower lo hlo j

example : samplePlant.tank.Consistent ∧ sampleExt.externalOutlet ≤ sampleExt.externalInlet ∧
    0 < sampleMpCond.mpFlowRate_LPS ∧ (∀ l ∈ sampleExt.shutOff, l.Usable samplePlant) ∧
    samplePlant.SoCUsable ∧
    (∀ water, ∃ perf, sampleMpCond.getPerformance sampleExt.airflowFreedom samplePlant.setpoint 20 water = .ok perf ∧
      0 < perf.outputPower_W) ∧
    ∃ r, condenserAddHeat (fun _ => 1) 20 sampleExt sampleMpCond samplePlant sampleState 20 30 =
      .ok r ∧ 0 < r.2.runtime_min ∧ r.2.energyOutput_kWh = 3 * r.2.energyInput_kWh := by
  refine ⟨warmTank_wellFormed.toConsistent, by decide +kernel, by decide +kernel, ?_, ?_, ?_, ?_⟩
  · intro l hl
    have : l = sampleShutOff := by simpa [sampleExt] using hl
    rw [this]
    exact trivial
  · intro c hc; exact absurd hc (by simp [samplePlant])
  · intro w
    refine ⟨_, rfl, ?_⟩
    norm_num [sampleMpCond, sampleExtCond, sampleCond, sampleExt, sampleElement]
  · decide +kernel

/-- Finding: unlike single-pass heating, multi-pass heating is not limited by the setpoint or the
condenser's maximum temperature: starting at or below the setpoint of 55 °C, the top of the tank ends
above it (and above the condenser's maximum of 70 °C, which is never consulted). -/
theorem C17_multi_pass_exceeds_setpoint :
    (∀ j, samplePlant.tank.nodeTs j ≤ samplePlant.setpoint) ∧
    ∃ r, externalAddHeat 40 { sampleExt with shutOff := [] } sampleMpCond samplePlant sampleState
        20 30 = .ok r ∧ samplePlant.setpoint < r.1.tank.nodeTs 3 := by
  decide +kernel

end HPWH
