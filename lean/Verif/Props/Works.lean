import Verif.Spec.Works
import Verif.Props.Init
import Verif.Props.Between

/-! # Accepted heaters work between the temperatures they are built for -/

namespace HPWH

open Spec
open _root_.HPWH.Units

variable {n k : ℕ}

theorem finish_ok {m : Libm} {pow : ℚ → ℚ → ℚ} {s s' : Sim n k} (h : s.finish m pow = .ok s') :
    ∃ s1, s.calcDerivedValues m pow = .ok s1 ∧ s1.checkInputs = .ok () ∧
      s' = { s1 with isHeating := decide (∃ i, (s1.st i).isOn = true) } := by
  unfold Sim.finish at h
  obtain ⟨s1, h1, h⟩ := (bind_ok_iff _ _ _).mp h
  obtain ⟨_, h2, h⟩ := (bind_ok_iff _ _ _).mp h
  cases h
  exact ⟨s1, h1, h2, rfl⟩

/-- What the end of every initialiser leaves as it was. -/
theorem finish_same {m : Libm} {pow : ℚ → ℚ → ℚ} (hp : PowPos pow) {s s' : Sim n k} (hV : 0 < s.tank.volume_L)
    (h : s.finish m pow = .ok s') :
    Sized pow s'.tank ∧ SameButSizes s.tank s'.tank ∧
    (∀ i, s'.cfg.src i = { s.cfg.src i with
      shrinkageT := (s'.cfg.src i).shrinkageT
      lowestNode := (s'.cfg.src i).lowestNode
      depressesTemperature := (s'.cfg.src i).depressesTemperature }) ∧
    s'.cfg = { s.cfg with
      src := s'.cfg.src
      compressorIndex := s'.cfg.compressorIndex
      lowestElementIndex := s'.cfg.lowestElementIndex
      vipIndex := s'.cfg.vipIndex
      heightMap := s'.cfg.heightMap } ∧
    s' = { s with tank := s'.tank, cfg := s'.cfg, isHeating := s'.isHeating } ∧
    (s'.isHeating = true ↔ ∃ i, (s.st i).isOn = true) := by
  obtain ⟨s1, h1, h2, rfl⟩ := finish_ok h
  obtain ⟨ix, t, mp, -, h3, -, rfl⟩ := calcDerived_ok h1
  obtain ⟨t', h3', hsz, hsb⟩ := C41_sizes pow hp s.tank hV
  cases h3.symm.trans h3'
  exact ⟨hsz, hsb, fun _ => rfl, rfl, rfl, by simp⟩

/-- After it has been accepted, a heater built for these temperatures works between them. -/
theorem finish_works (m : Libm) (hl : LogLike m.log) (pow : ℚ → ℚ → ℚ) (hp : PowPos pow)
    (hp1 : ∀ x y, 0 ≤ x → x ≤ 1 → 0 ≤ pow x y ∧ pow x y ≤ 1) (s s' : Sim n k) (lo : ℚ) (hi : WithTop ℚ)
    (airLo airHi : ℚ) (hb : Built s lo hi airLo airHi) (hUA : 0 ≤ s.tank.UA)
    (hex1 : s.tank.heatExchangerEffectiveness ≤ 1) (h : s.finish m pow = .ok s') (hg : Gentle s') :
    s'.WorksBetween lo hi airLo airHi := by
  obtain ⟨s1, h1, h2, rfl⟩ := finish_ok h
  have hv : ∀ i, (s1.cfg.src i).heatDist.isValid = true := fun i => sourceOk_valid h2 i
  obtain ⟨ix, t, mp, -, h3, -, rfl⟩ := calcDerived_ok h1
  obtain ⟨t', h3', hsz, hsb⟩ := C41_sizes pow hp s.tank hb.volume
  cases h3.symm.trans h3'
  have hN : ((n : ℚ) + 1) ≠ 0 := by positivity
  have hproper : ∀ i, (s.cfg.src i).heatDist.Proper := fun i => ⟨hv i, hb.weights i⟩
  have hshr : ∀ i c, IsHeatPump (s.cfg.src i) c → c.configuration ≠ .external →
      Sim.findShrinkage m.log (s.cfg.src i).heatDist (n + 1) ≠ 0 := fun i c hc he => by
    have := C61_spread m.log hl _ (hproper i) (hb.spread i c hc he)
    linarith
  have hex : 0 ≤ t.heatExchangerEffectiveness ∧ t.heatExchangerEffectiveness ≤ 1 := by
    rw [hsb]; exact ⟨hb.exchanger, hex1⟩
  have eUA : t.UA = s.tank.UA := by rw [hsb]
  have eF : t.fittingsUA = s.tank.fittingsUA := by rw [hsb]
  refine
    { nodes := hb.nodes, volume := ?_, nodeVolume := ?_, nodeCp := hsz.nodeCp, inlet := ?_
      inlet2 := ?_, mixBelow := ?_, mixing := ?_
      effectiveness := fun _ => C41_effectiveness pow hp1 t hsz hex.1 hex.2
      step := hb.step, absolute := hb.absolute, ends := ?_, side := ?_, gentle := hg, setpoint := hb.setpoint
      water := ?_, room := fun e => ?_, sound := fun i air ha => ?_ }
  · show 0 < t.volume_L
    rw [hsb]; exact hb.volume
  · show t.nodeVolume_L = t.volume_L / (n + 1)
    rw [eq_div_iff hN]; exact hsz.nodeVolume
  · show t.inletHeight ≤ n
    rw [hsb]; exact hb.inlet
  · show t.inlet2Height ≤ n
    rw [hsb]; exact hb.inlet2
  · show t.mixBelowFractionOnDraw ≤ 1
    rw [hsb]; exact hb.mixBelow
  · show t.doInversionMixing = true
    rw [hsb]; exact hb.mixing
  · show 0 ≤ t.UA * t.fracAreaTop
    rw [eUA]; exact mul_nonneg hUA hsz.areas.2.1.le
  · show 0 ≤ t.UA * t.fracAreaSide + t.fittingsUA
    rw [eUA, eF]; exact add_nonneg (mul_nonneg hUA hsz.areas.2.2.le) hb.fittings
  · show ∀ j, Lies lo hi (t.nodeTs j)
    rw [hsb]; exact hb.water
  · have e : s.cfg.doTempDepression = true := e
    rw [hb.room] at e
    cases e
  · refine ⟨fun w hw => ⟨hb.power i w hw, hproper i⟩, fun c hc he => ⟨hproper i, hshr i c hc he⟩,
      fun c hc he => hb.external i c hc he, fun c hc x hx water perf h1 h2 hpf =>
        hb.output i c hc x hx air water perf ha ⟨h1, h2⟩ hpf⟩

/-- The tank's own numbers that decide whether steps are short enough: `a` is the radius in feet, rounded down. -/
theorem gentle_of (pow : ℚ → ℚ → ℚ) (hc : CubeRoots pow) (s : Sim n k) (hs : Sized pow s.tank)
    (hV : 0 < s.tank.volume_L) (hm : s.cfg.minutesPerStep = 1) (a : ℚ) (ha : 0 < a)
    (ha3 : a ^ 3 ≤ L_TO_FT3 s.tank.volume_L / piLit / aspectRatio) (hUA : 0 ≤ s.tank.UA)
    (hF : s.tank.fittingsUA = 0)
    (hg : 2 * (2 * kWater / ((cpWater * 1000) * (rhoWater * 1000) *
        (aspectRatio * FT_TO_M (99 / 100 * a) / (n + 1)) ^ 2) * 60) +
      s.tank.UA / 60 / (4180 / 1000 * (995 / 1000) * (s.tank.volume_L / (n + 1))) ≤ 1) : Gentle s := by
  have hn : (0 : ℚ) < (n : ℚ) + 1 := by positivity
  have hr : FT_TO_M (99 / 100 * a) ≤ tankRadius pow s.tank.volume_L := by
    unfold tankRadius radiusFt
    rw [if_pos hV.le]
    have := hc a _ ha ha3
    unfold FT_TO_M ftPerM
    gcongr
  have hr0 : 0 < FT_TO_M (99 / 100 * a) := by unfold FT_TO_M ftPerM; positivity
  have hh : s.tank.nodeHeight_m = aspectRatio * tankRadius pow s.tank.volume_L / (n + 1) := by
    rw [eq_div_iff hn.ne']; exact hs.height
  have hnc : s.tank.nodeCp = 4180 / 1000 * (995 / 1000) * (s.tank.volume_L / (n + 1)) := by
    rw [hs.nodeCp]; congr 1; rw [eq_div_iff hn.ne']; exact hs.nodeVolume
  unfold Gentle
  rw [hm, hF]
  refine le_trans (add_le_add ?_ ?_) hg
  · have : s.tank.tau (60 * 1) ≤ 2 * kWater / ((cpWater * 1000) * (rhoWater * 1000) *
        (aspectRatio * FT_TO_M (99 / 100 * a) / (n + 1)) ^ 2) * 60 := by
      unfold Tank.tau
      rw [hh, mul_one, ← sq]
      have a1 : (0 : ℚ) < aspectRatio := by unfold aspectRatio; norm_num
      unfold kWater cpWater rhoWater
      gcongr
    linarith
  · rw [hnc, mul_one_div]
    have hcp : (0 : ℚ) < 4180 / 1000 * (995 / 1000) * (s.tank.volume_L / (n + 1)) := by positivity
    have h2 : (s.tank.UA * s.tank.fracAreaSide + 0) / ((n : ℚ) + 1) ≤ s.tank.UA * s.tank.fracAreaSide := by
      rw [add_zero]
      exact div_le_self (mul_nonneg hUA hs.areas.2.2.le) (by have : (0 : ℚ) ≤ n := by positivity
                                                             linarith)
    have h3 : 2 * (s.tank.UA * s.tank.fracAreaTop) + (s.tank.UA * s.tank.fracAreaSide + 0) / ((n : ℚ) + 1) ≤
        s.tank.UA := by
      have := hs.areas.1
      have e : s.tank.UA * (2 * s.tank.fracAreaTop + s.tank.fracAreaSide) = s.tank.UA := by rw [this, mul_one]
      linarith
    gcongr

end HPWH
