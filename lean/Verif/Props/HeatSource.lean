import Verif.Props.AddHeat
import Verif.Props.Profile
import Verif.Lemmas.HeatSource

/-! # C13–C15: heat sources that heat the tank through its wall or from inside -/

namespace HPWH

open Spec

variable {n k : ℕ}

/-! ## Samples for the non-vacuity examples -/

/-- A resistance element of 4.5 kW without shut-off logic, spread as `sampleDist`. -/
def sampleElement : SourceCfg 3 2 where
  kind := .resistance (9 / 2)
  isVIP := false
  backup := none
  companion := none
  followedBy := none
  heatDist := sampleDist
  shrinkageT := 1
  lowestNode := 0
  turnOn := []
  shutOff := []
  standby := none
  minT := -100
  maxT := 100
  depressesTemperature := false
  airflowFreedom := 1
  externalInlet := 3
  externalOutlet := 0

/-- A condenser with constant performance: 0.5 kW in, 1.5 kW out. -/
def sampleCond : CondCfg where
  configuration := .submerged
  isMultipass := false
  mpFlowRate_LPS := 1 / 10
  maxSetpoint := 70
  hysteresis := 2
  doDefrost := false
  defrostMap := []
  resDefrostPower_kW := 0
  resDefrostLift_dF := 0
  resDefrostOnBelow_F := -200
  maxOutT := 100
  maxOutAirT := -100
  coldSideOffset := 0
  hotSideOffset := 0
  extraPumpPower_W := 0
  standbyPower_kW := 1 / 1000
  inputPowerScale := 1
  copScale := 1
  evaluate := fun _ _ _ => ⟨500, 1500, 3⟩

/-- The condenser as a heat source. -/
def sampleSource : SourceCfg 3 2 := { sampleElement with kind := .condenser sampleCond }

/-- A plant at a setpoint of 55 °C around the stratified sample tank. -/
def samplePlant : Plant 3 where
  tank := warmTank
  setpoint := 55
  inletT := 10
  haveInletT := true
  socControl := none
  soc := 1
  condenserInlet := 0
  condenserOutlet := 0
  externalVolumeHeated := 0

/-- A heat source that is on and has not run yet. -/
def sampleState : SourceState := ⟨true, false, 0, 0, 0⟩

/-! ## C13 -/

/-- **C13.** Spreading `q ≥ 0` kJ over a stratified tank by a non-negative distribution with sum one:
the left-over heat `L` lies between 0 and `q` and the heat content of the tank rises by exactly
`q - L`. Moreover heat is left over only if the top of the tank has reached the cap, no node cools, a
node that changes ends at or below the cap, nodes below all the weight are untouched, the tank stays
stratified and nothing but node temperatures changes. -/
theorem C13_heat_accounts (t : Tank n) (ht : t.Consistent) (hs : Stratified t.nodeTs)
    (setpoint maxT q : ℚ) (hq : 0 ≤ q) (dist : Nodes n ℚ) (hd : ∀ i, 0 ≤ dist i)
    (hsum : ∑ i, dist i = 1) :
    ∃ L t', heat t setpoint dist q maxT = .ok (L, t') ∧ 0 ≤ L ∧ L ≤ q ∧
      tankHeat t.volume_L t'.nodeTs = tankHeat t.volume_L t.nodeTs + (q - L) ∧
      (0 < L → min maxT setpoint ≤ t'.nodeTs (Fin.last n)) ∧
      (∀ i, t.nodeTs i ≤ t'.nodeTs i) ∧
      (∀ i, t'.nodeTs i ≠ t.nodeTs i → t'.nodeTs i ≤ min maxT setpoint) ∧
      (∀ i, (∀ j, j ≤ i → dist j = 0) → t'.nodeTs i = t.nodeTs i) ∧
      Stratified t'.nodeTs ∧ t' = { t with nodeTs := t'.nodeTs } := by
  obtain ⟨r, h1, h2, h3, h4⟩ := heat_spec t setpoint dist q maxT ht.nodeCp_pos
    ((stratified_iff_monotone _).mp hs) hd hsum hq
  refine ⟨r.1, r.2, h1, h3.nonneg, h3.le ht.nodeCp_pos, ?_, h3.full, h3.warmer,
    fun i hi => (h3.cap i).resolve_left hi, h4, (stratified_iff_monotone _).mpr h3.mono, h2⟩
  rw [ht.tankHeat_eq, ht.tankHeat_eq]
  exact h3.energy

example : warmTank.Consistent ∧ Stratified warmTank.nodeTs ∧
    (∑ i, (![1 / 2, 0, 1 / 4, 1 / 4] : Nodes 3 ℚ) i = 1) ∧
    ∃ r, heat warmTank 55 ![1 / 2, 0, 1 / 4, 1 / 4] 30000 100 = .ok r ∧
      0 < r.1 ∧ r.1 < 30000 ∧ r.2.nodeTs 3 = 55 := by
  refine ⟨warmTank_wellFormed.toConsistent, ?_⟩
  unfold Stratified; decide +kernel

/-! ## C14 -/

/-- **C14.** A resistance element of positive power with a proper heating distribution, run for a
positive number of minutes on a stratified tank: the run time lies between 0 and the period, input
and output energy are both power × run time, and the heat content of the tank rises by exactly the
output energy (1 kWh = 3600 kJ). It stops early only if the top of the tank has reached the lower of
100 °C and the setpoint; it heats no node beyond that and no node below its own distribution; and the
tank stays stratified. -/
theorem C14_resistance_accounts (s : SourceCfg n k) (power : ℚ) (p : Plant n) (st : SourceState)
    (minutes : ℚ) (hp : 0 < power) (hmin : 0 < minutes) (ht : p.tank.Consistent)
    (hs : Stratified p.tank.nodeTs) (hd : s.heatDist.Proper) :
    ∃ p' st', resistanceAddHeat s power p st minutes = .ok (p', st') ∧
      0 ≤ st'.runtime_min ∧ st'.runtime_min ≤ minutes ∧
      st'.energyOutput_kWh - st.energyOutput_kWh = power * (st'.runtime_min / 60) ∧
      st'.energyInput_kWh - st.energyInput_kWh = power * (st'.runtime_min / 60) ∧
      tankHeat p.tank.volume_L p'.tank.nodeTs = tankHeat p.tank.volume_L p.tank.nodeTs +
        3600 * (st'.energyOutput_kWh - st.energyOutput_kWh) ∧
      (st'.runtime_min < minutes → min 100 p.setpoint ≤ p'.tank.nodeTs (Fin.last n)) ∧
      (∀ i, p'.tank.nodeTs i ≠ p.tank.nodeTs i → p'.tank.nodeTs i ≤ min 100 p.setpoint) ∧
      (∀ i : Fin (n + 1), densityIntegral 0 s.heatDist.rel 0 (((i : ℚ) + 1) / (n + 1)) = 0 →
        p'.tank.nodeTs i = p.tank.nodeTs i) ∧
      Stratified p'.tank.nodeTs ∧
      p' = { p with tank := { p.tank with nodeTs := p'.tank.nodeTs } } := by
  obtain ⟨T', st', h1, h2, h3, h4, h5⟩ := resistanceAddHeat_spec s power p st minutes hp hmin
    ht.nodeCp_pos ((stratified_iff_monotone _).mp hs) hd
  refine ⟨_, st', h1, h2.nonneg, h2.le, h4, by rw [h3, h4], ?_, h2.full,
    fun i hi => (h2.cap i).resolve_left hi, ?_, (stratified_iff_monotone _).mpr h2.mono, rfl⟩
  · rw [ht.tankHeat_eq, ht.tankHeat_eq]
    exact h2.energy
  · intro i hi
    apply h5
    intro j hj
    obtain ⟨-, -, hasc, -, -⟩ := WDist.rel_facts hd.valid
    have hjN : (j : ℚ) + 1 ≤ (i : ℚ) + 1 := by
      have : (j.val : ℚ) ≤ i.val := by exact_mod_cast hj
      linarith
    have hle : ((j : ℚ) + 1) / (n + 1) ≤ ((i : ℚ) + 1) / (n + 1) := by gcongr
    have hsplit := densityIntegral_add hasc (a := 0) (b := ((j : ℚ) + 1) / (n + 1))
      (c := ((i : ℚ) + 1) / (n + 1)) (by positivity) hle
    have hsplit2 := densityIntegral_add hasc (a := 0) (b := (j : ℚ) / (n + 1))
      (c := ((j : ℚ) + 1) / (n + 1)) (by positivity) (by gcongr; linarith)
    have hnn := densityIntegral_nonneg 0 (WDist.rel_nonneg hd)
    have ha := hnn 0 ((j : ℚ) / (n + 1))
    have hb := hnn ((j : ℚ) / (n + 1)) (((j : ℚ) + 1) / (n + 1))
    have hc := hnn (((j : ℚ) + 1) / (n + 1)) (((i : ℚ) + 1) / (n + 1))
    unfold WDist.share
    push_cast
    rw [div_eq_zero_iff]
    left
    linarith

example : samplePlant.tank.Consistent ∧ Stratified samplePlant.tank.nodeTs ∧
    sampleElement.heatDist.Proper ∧
    ∃ r, resistanceAddHeat sampleElement (9 / 2) samplePlant sampleState 120 = .ok r ∧
      0 < r.2.runtime_min ∧ r.2.runtime_min < 120 ∧ 0 < r.2.energyOutput_kWh := by
  refine ⟨warmTank_wellFormed.toConsistent, ?_, sampleDist_proper, ?_⟩
  · unfold Stratified; decide +kernel
  · decide +kernel

/-- Finding: an element whose power has been set to zero divides zero by zero: its run time is not a
number. -/
theorem C14_zero_power_undefined (s : SourceCfg n k) (p : Plant n) (st : SourceState) (minutes : ℚ)
    (hd : s.heatDist.Proper) :
    resistanceAddHeat s 0 p st minutes = .error .nan := by
  unfold resistanceAddHeat
  rw [WDist.calcHeatDist_eq hd (Nat.succ_pos n)]
  simp only [bind, Except.bind, zero_mul, if_true]
  cases h : heat p.tank p.setpoint (fun k : Fin (n + 1) => s.heatDist.share (n + 1) k) 0 100 with
  | ok r => rfl
  | error e =>
    unfold heat at h
    split_ifs at h
    rw [← h]

/-! ## C15 -/

/-- **C15.** A condenser in or around the tank, whatever its performance function, run for a positive
number of minutes on a stratified tank of at most 10000 nodes, with positive output at the temperature
of the water it sees: the run time lies between 0 and the period; input and output energy are power ×
run time; the heat content of the tank rises by exactly the output energy (1 kWh = 3600 kJ). It stops
early only if the top of the tank has reached the lower of the condenser's maximum and the setpoint,
heats no node beyond that, and the tank stays stratified. `exp` is any non-negative function. -/
theorem C15_condenser_accounts (exp : ℚ → ℚ) (hexp : ∀ x, 0 ≤ exp x) (s : SourceCfg n k)
    (c : CondCfg) (p : Plant n) (st : SourceState) (externalT minutes : ℚ)
    (hmin : 0 < minutes) (ht : p.tank.Consistent) (hs : Stratified p.tank.nodeTs)
    (hd : s.heatDist.Proper) (hshr : s.shrinkageT ≠ 0) (hn : n + 1 ≤ 10000)
    (hc : c.configuration ≠ .external) (water : ℚ) (perf : Perf)
    (hwater : s.heatDist.averageT p.tank.nodeTs = .ok water)
    (hperf : c.getPerformance s.airflowFreedom p.setpoint externalT water = .ok perf)
    (hpos : 0 < perf.outputPower_W) (fuel : ℕ) :
    ∃ p' st', condenserAddHeat exp fuel s c p st externalT minutes = .ok (p', st') ∧
      0 ≤ st'.runtime_min ∧ st'.runtime_min ≤ minutes ∧
      st'.energyOutput_kWh - st.energyOutput_kWh =
        perf.outputPower_W / 1000 * (st'.runtime_min / 60) ∧
      st'.energyInput_kWh - st.energyInput_kWh =
        perf.inputPower_W / 1000 * (st'.runtime_min / 60) ∧
      tankHeat p.tank.volume_L p'.tank.nodeTs = tankHeat p.tank.volume_L p.tank.nodeTs +
        3600 * (st'.energyOutput_kWh - st.energyOutput_kWh) ∧
      (st'.runtime_min < minutes → min c.maxSetpoint p.setpoint ≤ p'.tank.nodeTs (Fin.last n)) ∧
      (∀ i, p'.tank.nodeTs i ≠ p.tank.nodeTs i →
        p'.tank.nodeTs i ≤ min c.maxSetpoint p.setpoint) ∧
      Stratified p'.tank.nodeTs ∧
      p' = { p with tank := { p.tank with nodeTs := p'.tank.nodeTs }
                    condenserInlet := p'.condenserInlet
                    condenserOutlet := p'.condenserOutlet } := by
  obtain ⟨T', st', cin, cout, h1, h2, h3, h4⟩ := internalAddHeat_spec exp hexp s c p st externalT
    minutes hmin ht.nodeCp_pos ((stratified_iff_monotone _).mp hs) hd hshr hn hc perf
    ⟨water, hwater, hperf⟩ hpos
  refine ⟨{ p with tank := { p.tank with nodeTs := T' }, condenserInlet := cin,
                   condenserOutlet := cout }, st', ?_, h2.nonneg, h2.le, h4, h3, ?_, h2.full,
    fun i hi => (h2.cap i).resolve_left hi, (stratified_iff_monotone _).mpr h2.mono, ?_⟩
  · unfold condenserAddHeat
    cases hcfg : c.configuration with
    | external => exact absurd hcfg hc
    | submerged => exact h1
    | wrapped => exact h1
  · rw [ht.tankHeat_eq, ht.tankHeat_eq]
    exact h2.energy
  · rfl

example : samplePlant.tank.Consistent ∧ Stratified samplePlant.tank.nodeTs ∧
    sampleSource.heatDist.Proper ∧ sampleSource.shrinkageT ≠ 0 ∧
    sampleCond.configuration ≠ .external ∧
    (∃ w, sampleSource.heatDist.averageT samplePlant.tank.nodeTs = .ok w ∧
      ∃ perf, sampleCond.getPerformance sampleSource.airflowFreedom samplePlant.setpoint 20 w = .ok perf ∧
        0 < perf.outputPower_W) ∧
    ∃ r, condenserAddHeat (fun _ => 1) 0 sampleSource sampleCond samplePlant sampleState 20 500 =
      .ok r ∧ 0 < r.2.runtime_min ∧ r.2.runtime_min < 500 ∧
      r.2.energyOutput_kWh = 3 * r.2.energyInput_kWh := by
  refine ⟨warmTank_wellFormed.toConsistent, ?_, sampleDist_proper, ?_⟩
  · unfold Stratified; decide +kernel
  · decide +kernel

/-- The same with a wrapped-around condenser. -/
example : ∃ r, condenserAddHeat (fun _ => 1) 0 sampleSource
      { sampleCond with configuration := .wrapped } samplePlant sampleState 20 500 =
      .ok r ∧ 0 < r.2.runtime_min ∧ r.2.runtime_min < 500 := by
  decide +kernel

/-- Finding (C15 needs positive output): where a performance function gives negative output power, the
condenser reports negative output energy for the whole period although the tank is unchanged. -/
theorem C15_negative_output_miscounted :
    ∃ r, condenserAddHeat (fun _ => 1) 0 sampleSource
        { sampleCond with evaluate := fun _ _ _ => ⟨500, -1500, -3⟩ } samplePlant sampleState 20 60 =
        .ok r ∧ r.1.tank = samplePlant.tank ∧ r.2.runtime_min = 60 ∧
        r.2.energyOutput_kWh = -3 / 2 := by
  decide +kernel

end HPWH
