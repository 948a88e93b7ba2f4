import Verif.Props.Presets
import Verif.Props.RegPositive
import Verif.Props.Control

/-! # Runs of the built-in models -/

namespace HPWH

open Spec
open _root_.HPWH.Units

variable {n k n₀ k₀ : ℕ}

/-- Checks that a logic shuts off above a temperature. -/
def Logic.isUpper (l : Logic) : Bool :=
  match l.cmp, l.kind with
  | .greater, .temp _ _ => true
  | _, _ => false

theorem isUpper_iff {l : Logic} (h : l.isUpper = true) : l.UpperLimit := by
  unfold Logic.isUpper at h
  split at h
  · rename_i a d h1 h2
    exact ⟨h1, a, d, h2⟩
  · cases h

namespace Preset

/-- Checks that heat is spread over at least a twelfth of the tank. -/
def spreadOk (p : Preset) (d : WDist) : Bool :=
  (List.finRange (p.n + 1)).all fun x =>
    match d.normalizedWeight ((x : ℚ) / (p.n + 1 : ℕ)) (((x : ℚ) + 1) / (p.n + 1 : ℕ)) with
    | .ok w => decide (w * (p.n + 1 : ℕ) ≤ 12)
    | .error _ => true

/-- Checks what a heat pump delivers within the limits. -/
def pumpPos (p : Preset) (l : Limits) (i : Fin p.k) (c : CondCfg) : Bool :=
  (match (p.src i).perf with
    | .none => false
    | .polys ps => ps.posOn l.airLo l.airHi l.waterLo l.waterHi &&
      decide (c.coldSideOffset = 0) && decide (c.resDefrostPower_kW = 0)
    | .singlePass q => q.singlePassPos l.airLo l.airHi 80 212 l.waterLo l.waterHi &&
      decide (c.coldSideOffset = 0) && decide (c.resDefrostPower_kW = 0) && decide (c.hotSideOffset = 0)
    | .multiPass q => q.multiPassPos l.airLo l.airHi l.waterLo l.waterHi &&
      decide (c.coldSideOffset = 0) && decide (c.resDefrostPower_kW = 0)
    | .grid => decide (0 ≤ c.coldSideOffset) && decide (c.coldSideOffset ≤ 50 / 9) &&
      decide (0 ≤ c.resDefrostPower_kW) && decide (0 ≤ c.resDefrostLift_dF) && decide (c.resDefrostLift_dF ≤ 10)) &&
  (!c.doDefrost || decide (c.defrostMap = standardDefrost)) &&
  decide (0 < c.copScale) && decide (0 < c.inputPowerScale) && decide ((p.src i).cfg.airflowFreedom = 1)

/-- Checks how a heat pump heats. -/
def pumpOk (p : Preset) (l : Limits) (i : Fin p.k) (c : CondCfg) : Bool :=
  p.pumpPos l i c &&
  (if c.configuration = .external then
    decide ((p.src i).cfg.externalOutlet ≤ (p.src i).cfg.externalInlet) && !c.isMultipass &&
      (p.src i).cfg.shutOff.all (·.isUpper)
  else p.spreadOk (p.src i).cfg.heatDist) &&
  (match (p.src i).perf with
    | .polys _ => true
    | _ => decide (80 ≤ p.setpoint * 9 / 5 + 32) && decide (p.setpoint * 9 / 5 + 32 ≤ 212) &&
      decide (80 ≤ c.maxOutT * 9 / 5 + 32) && decide (c.maxOutT * 9 / 5 + 32 ≤ 212))

/-- The radius of a tank in feet, rounded down to a multiple of 0.05. -/
def radiusBelow (vol : ℚ) : ℚ :=
  ((List.range 60).map fun j => ((j : ℚ) + 1) / 20).foldl
    (fun b a => if a ^ 3 ≤ L_TO_FT3 vol / piLit / aspectRatio then a else b) 0

/-- The volume after the change of size. -/
def finalVolume (p : Preset) : ℚ :=
  match p.resize with
  | none => p.volume_L
  | some gal => gal * (378541 / 100000)

/-- No less than the heat loss after the change of size. -/
def finalUA (p : Preset) : ℚ :=
  match p.resize with
  | none => p.UA
  | some _ => p.UA * max 1 (L_TO_FT3 p.finalVolume / piLit / aspectRatio) ^ 2 / (99 / 100 * radiusBelow p.volume_L) ^ 2

/-- Checks that steps of a minute are short enough. -/
def gentle (p : Preset) : Bool :=
  decide (0 < radiusBelow p.finalVolume) &&
  decide (radiusBelow p.finalVolume ^ 3 ≤ L_TO_FT3 p.finalVolume / piLit / aspectRatio) &&
  decide (0 < radiusBelow p.volume_L) &&
  decide (radiusBelow p.volume_L ^ 3 ≤ L_TO_FT3 p.volume_L / piLit / aspectRatio) &&
  decide (2 * (2 * kWater / ((cpWater * 1000) * (rhoWater * 1000) *
        (aspectRatio * FT_TO_M (99 / 100 * radiusBelow p.finalVolume) / (p.n + 1)) ^ 2) * 60) +
      p.finalUA / 60 / (4180 / 1000 * (995 / 1000) * (p.finalVolume / (p.n + 1))) ≤ 1)

/-- Checks the heat sources. -/
def sourceWorks (p : Preset) (l : Limits) (i : Fin p.k) : Bool :=
  match (p.src i).cfg.kind with
  | .resistance w => decide (0 < w)
  | .condenser c => p.pumpOk l i c

/-- Checks that a model works within the limits. -/
def works (p : Preset) (l : Limits) : Bool :=
  decide (p.n + 1 ≤ 10000) && decide (0 ≤ p.heatExchangerEffectiveness) &&
  decide (-27315 / 100 < p.setpoint) && decide (p.setpoint * 9 / 5 + 32 ≤ l.waterHi) &&
  decide (l.waterLo ≤ p.initial.getD p.setpoint * 9 / 5 + 32) &&
  decide (p.initial.getD p.setpoint * 9 / 5 + 32 ≤ l.waterHi) && p.gentle &&
  decide (∀ i, p.sourceWorks l i = true)

end Preset

theorem lies_limits {lo hi x : ℚ} :
    Lies ((lo - 32) * 5 / 9) (((hi - 32) * 5 / 9 : ℚ) : WithTop ℚ) x ↔ lo ≤ x * 9 / 5 + 32 ∧ x * 9 / 5 + 32 ≤ hi := by
  rw [lies_coe]
  constructor <;> rintro ⟨h1, h2⟩ <;> constructor <;> linarith

theorem standardDefrost_factor (T : ℚ) : ∃ f, CondCfg.defrostFactor standardDefrost T = .ok f ∧ 0 < f := by
  obtain ⟨f, h, h1, -⟩ := C26_defrost_factor sampleCond rfl (8865 / 10000) (by norm_num) T
  exact ⟨f, h, by linarith⟩

/-- Performance after the adjustments of `getPerformance`. -/
theorem adjusted_positive {c : CondCfg} {x air water a : ℚ} {perf : Perf}
    (hd : c.doDefrost = false ∨ c.defrostMap = standardDefrost) (h5 : 0 < c.copScale) (h6 : 0 < c.inputPowerScale)
    (h7 : a = 1) (hres : 0 ≤ c.resDefrostPower_kW)
    (hperf : c.evaluate x (if decide (c.resDefrostPower_kW > 0) && decide (air < F_TO_C c.resDefrostOnBelow_F) then
        air + dF_TO_dC c.resDefrostLift_dF else air) (water + c.coldSideOffset) = perf)
    (p1 : 0 < perf.inputPower_W) (p2 : 0 < perf.cop) :
    ∃ perf, c.getPerformance a x air water = .ok perf ∧
      0 < perf.cop ∧ 0 < perf.inputPower_W ∧ 0 < perf.outputPower_W := by
  subst h7
  unfold CondCfg.getPerformance
  simp only [hperf]
  have i1 : 0 < perf.inputPower_W * c.inputPowerScale := mul_pos p1 h6
  have i3 : ∀ b : Bool, 0 < if b then perf.inputPower_W * c.inputPowerScale + KW_TO_W c.resDefrostPower_kW
      else perf.inputPower_W * c.inputPowerScale := fun b => by
    have : 0 ≤ KW_TO_W c.resDefrostPower_kW := mul_nonneg (by norm_num) hres
    split <;> linarith
  by_cases hdd : c.doDefrost = true
  · rcases hd with hd | hd
    · rw [hd] at hdd; cases hdd
    obtain ⟨f, hf, hpos⟩ := standardDefrost_factor (C_TO_F (if decide (c.resDefrostPower_kW > 0) &&
      decide (air < F_TO_C c.resDefrostOnBelow_F) then air + dF_TO_dC c.resDefrostLift_dF else air))
    have i2 : 0 < perf.cop * c.copScale * f := mul_pos (mul_pos p2 h5) hpos
    simp only [hdd, if_true, hd, hf, bind, Except.bind, pure, Except.pure, ne_eq, not_true_eq_false, if_false]
    exact ⟨_, rfl, i2, i3 _, mul_pos i2 i1⟩
  · have i2 : 0 < perf.cop * c.copScale := mul_pos p2 h5
    simp only [hdd, Bool.false_eq_true, bind, Except.bind, pure, Except.pure, ne_eq, not_true_eq_false, if_false]
    exact ⟨_, rfl, i2, i3 _, mul_pos i2 i1⟩

/-- Heat pumps that pass the check deliver, within the limits. -/
theorem pumpPos_positive {p : Preset} {l : Limits} {i : Fin p.k} {c : CondCfg} (h : p.pumpPos l i c = true)
    (grid : ℚ → ℚ → ℚ → Perf) (hgrid : HasTable p → TablePositive grid l) {x air water : ℚ}
    (hx : (∀ ps, (p.src i).perf ≠ .polys ps) → UsualSetpoint x) (ha : l.air air) (hw : l.water water) :
    ∃ perf, ({ c with evaluate := (p.src i).perf.make grid c } : CondCfg).getPerformance
        (p.src i).cfg.airflowFreedom x air water = .ok perf ∧
      0 < perf.cop ∧ 0 < perf.inputPower_W ∧ 0 < perf.outputPower_W := by
  unfold Preset.pumpPos at h
  simp only [Bool.and_eq_true, Bool.or_eq_true, Bool.not_eq_true', decide_eq_true_eq] at h
  obtain ⟨⟨⟨⟨h1, h4⟩, h5⟩, h6⟩, h7⟩ := h
  have fa : ∀ t, fahrenheit t = t * 9 / 5 + 32 := fun t => by unfold fahrenheit; ring
  have a1 := ha.1; have a2 := ha.2; have w1 := hw.1; have w2 := hw.2
  split at h1
  · cases h1
  · rename_i ps e
    simp only [Bool.and_eq_true, decide_eq_true_eq] at h1
    obtain ⟨⟨h1, h2⟩, h3⟩ := h1
    obtain ⟨r, e1, p1, p2, -⟩ := PolySet.posOn_pos h1 (ext := air) (hs := water) (by rwa [fa]) (by rwa [fa])
      (by rwa [fa]) (by rwa [fa])
    refine adjusted_positive (perf := r) h4 h5 h6 h7 h3.ge ?_ p1 p2
    simp only [h2, h3, e, PerfData.make, add_zero, lt_irrefl, decide_false, Bool.false_and,
      Bool.false_eq_true, if_false]
    unfold PolySet.make
    rw [e1]
  · rename_i q e
    simp only [Bool.and_eq_true, decide_eq_true_eq] at h1
    obtain ⟨⟨⟨h1, h2⟩, h3⟩, h8⟩ := h1
    have hu := hx (fun ps => by rw [e]; exact fun h => by cases h)
    obtain ⟨r, e1, p1, p2⟩ := Poly.singlePassPos_pos h1 (air := air) (water := water) (setpoint := x) (offset := 0)
      (by rwa [fa]) (by rwa [fa]) (by rw [fa, add_zero]; exact hu.1) (by rw [fa, add_zero]; exact hu.2) (by rwa [fa])
      (by rwa [fa])
    refine adjusted_positive (perf := r) h4 h5 h6 h7 h3.ge ?_ p1 p2
    simp only [h2, h3, h8, e, PerfData.make, add_zero, lt_irrefl, decide_false, Bool.false_and,
      Bool.false_eq_true, if_false, e1]
  · rename_i q e
    simp only [Bool.and_eq_true, decide_eq_true_eq] at h1
    obtain ⟨⟨h1, h2⟩, h3⟩ := h1
    obtain ⟨r, e1, p1, p2⟩ := Poly.multiPassPos_pos h1 (air := air) (water := water) (by rwa [fa]) (by rwa [fa])
      (by rwa [fa]) (by rwa [fa])
    refine adjusted_positive (perf := r) h4 h5 h6 h7 h3.ge ?_ p1 p2
    simp only [h2, h3, e, PerfData.make, add_zero, lt_irrefl, decide_false, Bool.false_and,
      Bool.false_eq_true, if_false, e1]
  · rename_i e
    simp only [Bool.and_eq_true, decide_eq_true_eq] at h1
    obtain ⟨⟨⟨⟨c1, c2⟩, c3⟩, c4⟩, c5⟩ := h1
    have hu := hx (fun ps => by rw [e]; exact fun h => by cases h)
    have lift : dF_TO_dC c.resDefrostLift_dF * 9 / 5 = c.resDefrostLift_dF := by
      unfold dF_TO_dC FperC; ring
    have key := hgrid ⟨i, e⟩ x (if decide (c.resDefrostPower_kW > 0) && decide (air < F_TO_C c.resDefrostOnBelow_F) then
        air + dF_TO_dC c.resDefrostLift_dF else air) (water + c.coldSideOffset) hu
      (by split <;> linarith) (by split <;> linarith) (by linarith) (by linarith)
    refine adjusted_positive h4 h5 h6 h7 c3 ?_ key.2 key.1
    rw [e]; rfl

theorem Preset.finalVolume_eq (p : Preset) : p.finalVolume = match p.resize with
    | none => p.volume_L
    | some gal => gal * (378541 / 100000) := rfl

theorem Preset.finalUA_le {p : Preset} (pow : ℚ → ℚ → ℚ) (hp : PowPos pow)
    (hp1 : ∀ x y, 0 ≤ x → x ≤ 1 → 0 ≤ pow x y ∧ pow x y ≤ 1) (hbig : ∀ x, 1 ≤ x → pow x (1 / 3) ≤ x)
    (hroot : CubeRoots pow) (hr : 0 < radiusBelow p.volume_L)
    (hr3 : radiusBelow p.volume_L ^ 3 ≤ L_TO_FT3 p.volume_L / piLit / aspectRatio) (hUA : 0 ≤ p.UA)
    (hV : 0 < p.finalVolume) (UA : ℚ) (h1 : p.resize = none → UA = p.UA)
    (h2 : UA * tankSurfaceArea pow p.volume_L = p.UA * tankSurfaceArea pow p.finalVolume) : UA ≤ p.finalUA := by
  unfold Preset.finalUA
  cases e : p.resize with
  | none => exact (h1 e).le
  | some gal =>
    simp only
    have h3 : UA * radiusFt pow p.volume_L ^ 2 = p.UA * radiusFt pow p.finalVolume ^ 2 := by
      unfold tankSurfaceArea FT2_TO_M2 FT_TO_M ftPerM piLit aspectRatio at h2
      linarith [h2]
    set x := L_TO_FT3 p.finalVolume / piLit / aspectRatio with hx
    have hx0 : 0 < x := by
      rw [hx]; unfold L_TO_FT3 piLit aspectRatio; positivity
    have up : radiusFt pow p.finalVolume ≤ max 1 x := by
      unfold radiusFt
      rw [← hx]
      rcases le_total x 1 with h | h
      · exact (hp1 x _ hx0.le h).2.trans (le_max_left _ _)
      · exact (hbig x h).trans (le_max_right _ _)
    have lowr : 99 / 100 * radiusBelow p.volume_L ≤ radiusFt pow p.volume_L := hroot _ _ hr hr3
    have pos : 0 < radiusFt pow p.finalVolume := hp _ _ hx0
    have q0 : 0 < 99 / 100 * radiusBelow p.volume_L := by positivity
    have u0 : 0 ≤ UA := by
      have : 0 ≤ UA * radiusFt pow p.volume_L ^ 2 := by rw [h3]; positivity
      exact nonneg_of_mul_nonneg_left this (by have := q0.trans_le lowr; positivity)
    rw [le_div_iff₀ (by positivity)]
    calc UA * (99 / 100 * radiusBelow p.volume_L) ^ 2 ≤ UA * radiusFt pow p.volume_L ^ 2 := by gcongr
      _ = p.UA * radiusFt pow p.finalVolume ^ 2 := h3
      _ ≤ _ := by gcongr

/-- A model that passes the check works within the limits. -/
theorem works_between {p : Preset} (h : p.Accepts) {l : Limits} (hl : p.works l = true) (m : Libm)
    (hlog : LogLike m.log) (pow : ℚ → ℚ → ℚ) (hp : PowPos pow)
    (hp1 : ∀ x y, 0 ≤ x → x ≤ 1 → 0 ≤ pow x y ∧ pow x y ≤ 1) (hbig : ∀ x, 1 ≤ x → pow x (1 / 3) ≤ x)
    (hroot : CubeRoots pow) (grid : ℚ → ℚ → ℚ → Perf) (hgrid : HasTable p → TablePositive grid l)
    (base : Sim n₀ k₀) (s : Sim p.n p.k) (hs : p.initLegacy m pow grid base = .ok s) :
    s.WorksBetween ((l.waterLo - 32) * 5 / 9) (((l.waterHi - 32) * 5 / 9 : ℚ) : WithTop ℚ)
      ((l.airLo - 32) * 5 / 9) ((l.airHi - 32) * 5 / 9) := by
  unfold Preset.works at hl
  simp only [Bool.and_eq_true, decide_eq_true_eq] at hl
  obtain ⟨⟨⟨⟨⟨⟨⟨r1, r2⟩, r3⟩, r4⟩, r5⟩, r6⟩, r7⟩, r8⟩ := hl
  obtain ⟨hd, -, -, hsz, hUA', harea⟩ := Preset.initLegacy_listed h m pow hp grid base s hs
  obtain ⟨t, ht, hsb, hV, hUA, -, hn, -⟩ := Preset.sized_ok h pow hp grid base
  unfold Preset.initLegacy at hs
  rw [ht] at hs
  simp only [bind, Except.bind] at hs
  rw [Preset.fill_eq] at hs
  obtain ⟨-, h2, -, h4, -, -⟩ := finish_same hp hV hs
  have hfill : Lies ((l.waterLo - 32) * 5 / 9) (((l.waterHi - 32) * 5 / 9 : ℚ) : WithTop ℚ)
      (p.initial.getD p.setpoint) := lies_limits.mpr ⟨r5, r6⟩
  have hcfg (i : Fin p.k) : ((p.src i).source grid).heatDist = (p.src i).cfg.heatDist := by rw [source_cfg]
  have hvol : s.tank.volume_L = p.finalVolume := hd.volume
  have hpos : 0 < s.tank.volume_L := by rw [h2]; exact hV
  have hloss : 0 ≤ s.tank.UA := by rw [h2]; exact hUA
  have hfit : s.tank.fittingsUA = 0 := by
    rw [h2]; show t.fittingsUA = 0
    rw [hsb]; rfl
  refine finish_works m hlog pow hp hp1 _ s _ _ _ _ ?_ hUA ?_ hs ?_
  · refine
      { nodes := r1, volume := hV, inlet := ?_, inlet2 := ?_, mixBelow := ?_, mixing := ?_, exchanger := ?_
        fittings := ?_, step := by show (0 : ℚ) ≤ 1; norm_num
        room := rfl, absolute := r3, setpoint := ?_, water := fun _ => hfill
        weights := fun i => by
          show ∀ q ∈ ((p.src i).source grid).heatDist, _
          rw [hcfg]; exact h.weights i
        spread := fun i c hc he => ?_
        power := fun i w hw => ?_
        external := fun i c hc he => ?_
        output := fun i c hc x hx air water perf ha hw hpf => ?_ }
    · show t.inletHeight ≤ p.n
      rw [hsb]; exact Nat.zero_le _
    · show t.inlet2Height ≤ p.n
      rw [hsb]; exact Nat.zero_le _
    · show t.mixBelowFractionOnDraw ≤ 1
      rw [hsb]; show (1 / 3 : ℚ) ≤ 1; norm_num
    · show t.doInversionMixing = true
      rw [hsb]; rfl
    · show 0 ≤ t.heatExchangerEffectiveness
      rw [hsb]; exact r2
    · show 0 ≤ t.fittingsUA
      rw [hsb]; exact le_rfl
    · show ((p.setpoint : ℚ) : WithTop ℚ) ≤ _
      exact WithTop.coe_le_coe.mpr (by linarith)
    · obtain ⟨c0, k0, rfl⟩ := source_heatPump hc
      have := r8 i
      unfold Preset.sourceWorks at this
      rw [k0] at this
      simp only [Preset.pumpOk, Bool.and_eq_true] at this
      have h9 := this.1.2
      rw [if_neg he] at h9
      show SpreadOut ((p.src i).source grid).heatDist (p.n + 1)
      rw [hcfg]
      unfold Preset.spreadOk at h9
      rw [List.all_eq_true] at h9
      intro y w hw
      have := h9 y (List.mem_finRange y)
      simp only [hw] at this
      simpa using this
    · have hk := source_element (show ((p.src i).source grid).kind = _ from hw)
      have := r8 i
      unfold Preset.sourceWorks at this
      rw [hk] at this
      simpa using this
    · obtain ⟨c0, k0, rfl⟩ := source_heatPump hc
      have := r8 i
      unfold Preset.sourceWorks at this
      rw [k0] at this
      simp only [Preset.pumpOk, Bool.and_eq_true] at this
      have h9 := this.1.2
      rw [if_pos he] at h9
      simp only [Bool.and_eq_true, decide_eq_true_eq, List.all_eq_true, Bool.not_eq_true'] at h9
      obtain ⟨⟨h10, h11⟩, h12⟩ := h9
      refine ⟨?_, fun hh => ?_, fun _ => ?_⟩
      · show ((p.src i).source grid).externalOutlet ≤ ((p.src i).source grid).externalInlet
        rw [source_cfg]; exact h10
      · have hh : c0.isMultipass = true := hh
        rw [h11] at hh; cases hh
      · show ∀ l ∈ ((p.src i).source grid).shutOff, _
        rw [source_cfg]
        exact fun l hl => isUpper_iff (h12 l hl)
    · obtain ⟨c0, k0, rfl⟩ := source_heatPump hc
      have := r8 i
      unfold Preset.sourceWorks at this
      rw [k0] at this
      unfold Preset.pumpOk at this
      rw [Bool.and_eq_true, Bool.and_eq_true] at this
      obtain ⟨perf', e, -, -, hpos⟩ := pumpPos_positive this.1.1 grid hgrid (x := x) (fun hne => by
        have h9 := this.2
        split at h9
        · rename_i ps e; exact absurd e (hne ps)
        · simp only [Bool.and_eq_true, decide_eq_true_eq] at h9
          rcases hx with hx | hx
          · rw [hx]; exact ⟨h9.1.1.1, h9.1.1.2⟩
          · rw [hx]; exact ⟨h9.1.2, h9.2⟩) (lies_limits.mp ha) (lies_limits.mp hw)
      have e3 : ((p.src i).source grid).airflowFreedom = (p.src i).cfg.airflowFreedom := by rw [source_cfg]
      have hpf : CondCfg.getPerformance _ ((p.src i).source grid).airflowFreedom x air water = _ := hpf
      rw [e3, e] at hpf
      cases hpf
      exact hpos
  · show t.heatExchangerEffectiveness ≤ 1
    rw [hsb]; exact h.exchanger
  · unfold Preset.gentle at r7
    simp only [Bool.and_eq_true, decide_eq_true_eq] at r7
    obtain ⟨⟨⟨⟨g1, g2⟩, g3⟩, g4⟩, g5⟩ := r7
    have hle := Preset.finalUA_le pow hp hp1 hbig hroot g3 g4 h.loss (by rw [← hvol]; exact hpos) s.tank.UA hUA'
      (by rw [← hvol]; exact harea)
    refine gentle_of pow hroot s hsz hpos hd.step (Preset.radiusBelow p.finalVolume) g1 ?_ hloss hfit ?_
    · rw [hvol]; exact g2
    · refine le_trans (add_le_add le_rfl ?_) g5
      rw [hvol]
      rw [hvol] at hpos
      gcongr

/-- All heat pumps pass. -/
theorem table_positive : ∀ q ∈ Presets.table, ∀ i, (match (q.2.src i).cfg.kind with
    | .resistance _ => true
    | .condenser c => q.2.pumpPos (limits q.1) i c) = true := by decide +kernel

/-- All models with heat sources that are not multi-pass systems pass. -/
theorem table_works : ∀ q ∈ Presets.table, q.2.k ≠ 0 →
    (∀ i, (match (q.2.src i).cfg.kind with
      | .condenser c => !decide (c.configuration = .external) || !c.isMultipass
      | .resistance _ => true) = true) → q.2.works (limits q.1) = true := by decide +kernel

theorem works_of (q : String × Preset) (hq : q ∈ Presets.table) (hone : OnePass q.2) :
    q.2.works (limits q.1) = true := by
  refine table_works q hq hone.1 fun i => ?_
  cases e : (q.2.src i).cfg.kind with
  | resistance w => rfl
  | condenser c =>
    have := hone.2 i c e
    simpa [or_iff_not_imp_left] using this

/-- **C86.** The heat pumps of all models have positive COP and take and deliver positive power, for air and water within
the limits and, unless the performance is given by polynomials, which do not depend on it, any usual setpoint. Where the
performance is given by a table, if the table and its interpolation are. -/
theorem C86_positive (m : Libm) (pow : ℚ → ℚ → ℚ) (hp : PowPos pow) (grid : ℚ → ℚ → ℚ → Perf) (base : Sim n₀ k₀)
    (q : String × Preset) (hq : q ∈ Presets.table) (hgrid : HasTable q.2 → TablePositive grid (limits q.1))
    (s : Sim q.2.n q.2.k) (hs : q.2.initLegacy m pow grid base = .ok s) (i : Fin q.2.k) (c : CondCfg)
    (hc : IsHeatPump (s.cfg.src i) c) (setpoint air water : ℚ)
    (hx : (∀ ps, (q.2.src i).perf ≠ .polys ps) → UsualSetpoint setpoint)
    (ha : (limits q.1).air air) (hw : (limits q.1).water water) :
    ∃ perf, c.getPerformance (s.cfg.src i).airflowFreedom setpoint air water = .ok perf ∧
      0 < perf.cop ∧ 0 < perf.inputPower_W ∧ 0 < perf.outputPower_W := by
  have r8 := table_positive q hq i
  have hl := (C85_delivered m pow hp grid base q hq s hs).1.source i
  rw [hl] at hc ⊢
  obtain ⟨c0, k0, rfl⟩ := source_heatPump (show IsHeatPump ((q.2.src i).source grid) c from hc)
  rw [k0] at r8
  have e3 : ((q.2.src i).source grid).airflowFreedom = (q.2.src i).cfg.airflowFreedom := by rw [source_cfg]
  simp only [e3]
  exact pumpPos_positive r8 grid hgrid hx ha hw

/-- **C86.** A run of any number of minutes of a model other than a central multi-pass system, as delivered, with entering
water and air around the tank within the limits for water and air at the heat pump within those for air, keeps all
temperatures of the tank and of the water delivered within the limits, and balances. The model with a heat exchanger must
not be drawn more than a node's volume per minute. Missing: multi-pass systems, which heat the water of the tank by
a few degrees at a time and may pass the limit. -/
theorem C86_run_partial (m : Libm) (hexp : ∀ x, 0 ≤ m.exp x) (hlog : LogLike m.log) (pow : ℚ → ℚ → ℚ) (hp : PowPos pow)
    (hp1 : ∀ x y, 0 ≤ x → x ≤ 1 → 0 ≤ pow x y ∧ pow x y ≤ 1) (hbig : ∀ x, 1 ≤ x → pow x (1 / 3) ≤ x)
    (hroot : CubeRoots pow) (grid : ℚ → ℚ → ℚ → Perf)
    (base : Sim n₀ k₀) (q : String × Preset) (hq : q ∈ Presets.table) (hone : OnePass q.2)
    (hgrid : HasTable q.2 → TablePositive grid (limits q.1)) (s s' : Sim q.2.n q.2.k)
    (hs : q.2.initLegacy m pow grid base = .ok s) (fuel : ℕ) (us : List Sim.RunInput)
    (hu : ∀ u ∈ us, 0 ≤ u.draw_L ∧ (limits q.1).water u.inletT ∧ (limits q.1).water u.tankAmbient ∧
      (limits q.1).air u.sourceAmbient ∧
      (q.2.hasHeatExchanger = true → u.draw_L ≤ s.tank.volume_L / (q.2.n + 1)))
    (hrun : Sim.runNSteps m fuel s us = .ok s') :
    (∀ j, (limits q.1).water (s'.tank.nodeTs j)) ∧ (limits q.1).water s'.tank.outletT ∧
    tankHeat s.tank.volume_L s'.tank.nodeTs =
      tankHeat s.tank.volume_L (fun _ : Fin (q.2.n + 1) => q.2.initial.getD q.2.setpoint) +
      3600 * ∑ i, (s'.st i).energyOutput_kWh +
      ∑ t : Fin us.length, waterHeat us[t].draw_L us[t].inletT -
      waterHeat (∑ t : Fin us.length, us[t].draw_L) s'.tank.outletT -
      3600 * s'.standbyLosses_kWh := by
  have hacc := Preset.accepts_iff (table_accepts q hq)
  have hwk := works_of q hq hone
  have hb := works_between hacc hwk m hlog pow hp hp1 hbig hroot grid hgrid base s hs
  have hd := (C85_delivered m pow hp grid base q hq s hs).1
  obtain ⟨r1, r2, r3⟩ := C83_run m hexp fuel s s' us _ _ _ _ hb (fun u hu' => by
    obtain ⟨u1, u2, u3, u4, u5⟩ := hu u hu'
    refine ⟨u1, le_refl 0, lies_limits.mpr u2, .inl rfl, fun hh => ?_, rfl, lies_limits.mpr u3,
      fun _ => lies_limits.mpr u4, fun hh => (by rw [hd.room] at hh; cases hh)⟩
    have he := hb.effectiveness hh
    rw [hd.exchanger] at hh
    have h5 := u5 hh
    rw [hb.nodeVolume]
    calc s.tank.nodeHeatExchangerEffectiveness * u.draw_L ≤ 1 * u.draw_L :=
          mul_le_mul_of_nonneg_right he.2 u1
      _ ≤ _ := by rw [one_mul]; exact h5) hrun
  refine ⟨fun j => lies_limits.mp (r1 j), lies_limits.mp r2, ?_⟩
  rw [r3]
  have : s.tank.nodeTs = fun _ => q.2.initial.getD q.2.setpoint := funext hd.hot
  rw [this]

/-! ## Where models do not work -/

/-- Finding: within the air temperatures at which its heat pump may run (45 to 120 °F) and below its setpoint of 127 °F, the
COP of GenericUEF217 is negative: at 120 °F air and water. The heat pump then takes heat out of the water. -/
theorem C86_UEF217_cools (m : Libm) (pow : ℚ → ℚ → ℚ) (hp : PowPos pow) (grid : ℚ → ℚ → ℚ → Perf) (base : Sim n₀ k₀)
    (setpoint : ℚ) :
    ∃ (s : Sim 11 3) (c : CondCfg) (perf : Perf), Presets.GenericUEF217.initLegacy m pow grid base = .ok s ∧
      IsHeatPump (s.cfg.src 2) c ∧
      (s.cfg.src 2).minT < (120 - 32) * 5 / 9 ∧ (120 - 32) * 5 / 9 ≤ (s.cfg.src 2).maxT ∧
      (120 - 32) * 5 / 9 < s.setpoint ∧
      c.getPerformance (s.cfg.src 2).airflowFreedom setpoint ((120 - 32) * 5 / 9) ((120 - 32) * 5 / 9) = .ok perf ∧
      perf.cop < 0 ∧ 0 < perf.inputPower_W ∧ perf.outputPower_W < 0 := by
  have hq : ("GenericUEF217", Presets.GenericUEF217) ∈ Presets.table := by unfold Presets.table; simp
  obtain ⟨s, hs⟩ := C85_accepted m pow hp grid base _ hq
  have hd := (C85_delivered m pow hp grid base _ hq s hs).1
  let i : Fin Presets.GenericUEF217.k := (2 : Fin 3)
  have h2 := hd.source i
  have h3 : ((Presets.GenericUEF217.src i).source grid).minT < (120 - 32) * 5 / 9 := by
    show F_TO_C 45 < _
    norm_num [F_TO_C, offsetF, FperC]
  have h4 : (120 - 32) * 5 / 9 ≤ ((Presets.GenericUEF217.src i).source grid).maxT := by
    show _ ≤ F_TO_C 120
    norm_num [F_TO_C, offsetF, FperC]
  have h5 : ((Presets.GenericUEF217.src i).source grid).airflowFreedom = 1 := rfl
  obtain ⟨c, hc, h6⟩ : ∃ c, IsHeatPump ((Presets.GenericUEF217.src i).source grid) c ∧
      ∀ x, ∃ perf, c.getPerformance 1 x ((120 - 32) * 5 / 9) ((120 - 32) * 5 / 9) = .ok perf ∧
        perf.cop < 0 ∧ 0 < perf.inputPower_W ∧ perf.outputPower_W < 0 := by
    refine ⟨_, rfl, fun x => ?_⟩
    have key : ∃ perf, (match ((Presets.GenericUEF217.src (2 : Fin 3)).source fun _ _ _ => ⟨0, 0, 0⟩).kind with
        | .condenser c => c.getPerformance 1 0 ((120 - 32) * 5 / 9) ((120 - 32) * 5 / 9)
        | .resistance _ => .error .error) = .ok perf ∧
        perf.cop < 0 ∧ 0 < perf.inputPower_W ∧ perf.outputPower_W < 0 := by decide +kernel
    exact key
  have e1 : (s.cfg.src i).airflowFreedom = 1 := by rw [h2]; exact h5
  obtain ⟨perf, hpf, hneg⟩ := h6 setpoint
  refine ⟨s, c, perf, hs, by change IsHeatPump (s.cfg.src i) c; rw [h2]; exact hc,
    by change (s.cfg.src i).minT < _; rw [h2]; exact h3, by change _ ≤ (s.cfg.src i).maxT; rw [h2]; exact h4, ?_, ?_, hneg⟩
  · rw [hd.setpoint]
    show _ < F_TO_C 127
    norm_num [F_TO_C, offsetF, FperC]
  · change c.getPerformance (s.cfg.src i).airflowFreedom _ _ _ = _
    rw [e1]; exact hpf

/-- Finding: outside the limits, polynomials change sign. COP of Rheem2020Prem and RheemPlugInShared with air of 37 °F
(their lowest) and water of 160 °F (their highest setpoint); COP of Sanco heat pumps with air of -24 °F (they may run
above -25 °F) and water of 149 °F (their setpoint); input power of AquaThermAire with water of 33 °F. -/
theorem C86_outside_limits :
    (∀ q ∈ Presets.table, q.1 ∈ ["Rheem2020Prem40", "Rheem2020Prem50", "Rheem2020Prem65", "Rheem2020Prem80",
        "RheemPlugInShared40", "RheemPlugInShared50", "RheemPlugInShared65", "RheemPlugInShared80"] →
      ∃ i, ∃ ps ∈ (match (q.2.src i).perf with
          | .polys ps => [ps]
          | _ => []), (q.2.src i).cfg.minT = (37 - 32) * 5 / 9 ∧
        (match (q.2.src i).cfg.kind with
          | .condenser c => decide (c.maxSetpoint = (160 - 32) * 5 / 9)
          | _ => false) = true ∧
        ∃ r, ps.evaluate ((37 - 32) * 5 / 9) ((160 - 32) * 5 / 9) = .ok r ∧ r.cop < 0) ∧
    (∀ q ∈ Presets.table, q.1 ∈ ["Sanco43", "Sanco83", "SancoGS3_45HPA_US_SP", "Sanco119"] →
      q.2.setpoint = (149 - 32) * 5 / 9 ∧
      ∃ i, ∃ ps ∈ (match (q.2.src i).perf with
          | .polys ps => [ps]
          | _ => []), (q.2.src i).cfg.minT = (-25 - 32) * 5 / 9 ∧
        ∃ r, ps.evaluate ((-24 - 32) * 5 / 9) ((149 - 32) * 5 / 9) = .ok r ∧ r.cop < 0) ∧
    (∃ i, ∃ ps ∈ (match (Presets.AquaThermAire.src i).perf with
          | .polys ps => [ps]
          | _ => []), ∃ r, ps.evaluate 20 ((33 - 32) * 5 / 9) = .ok r ∧ r.inputPower_W < 0) := by
  decide +kernel

/-! ## Models, functions and runs that meet the hypotheses -/

/-- A power function that satisfies all that is asked of one. -/
def coarsePow (x _ : ℚ) : ℚ := if x ≤ 1 then 1 else x

theorem coarsePow_ok : PowPos coarsePow ∧ (∀ x y, 0 ≤ x → x ≤ 1 → 0 ≤ coarsePow x y ∧ coarsePow x y ≤ 1) ∧
    CubeRoots coarsePow := by
  refine ⟨fun x y h => ?_, fun x y h0 h1 => ?_, fun a x ha h => ?_⟩
  · unfold coarsePow
    split
    · norm_num
    · exact h
  · unfold coarsePow
    rw [if_pos h1]
    norm_num
  · unfold coarsePow
    split
    · rename_i hx
      have : a ≤ 1 := by
        by_contra hh
        have h1 : 1 < a := not_le.mp hh
        have : 1 < a ^ 3 := one_lt_pow₀ h1 (by norm_num)
        linarith
      linarith
    · rename_i hx
      have h1 : 1 < x := not_le.mp hx
      rcases le_total a 1 with h2 | h2
      · linarith
      · have : a ≤ a ^ 3 := le_self_pow₀ h2 (by norm_num)
        linarith

example : LogLike sampleLibm.log ∧ ∀ x, 0 ≤ sampleLibm.exp x :=
  ⟨⟨rfl, fun _ _ _ _ => le_refl _, fun _ _ => by norm_num [sampleLibm]⟩, fun _ => by norm_num [sampleLibm]⟩

example : ∀ x, 1 ≤ x → coarsePow x (1 / 3) ≤ x := fun x h => by
  unfold coarsePow
  split
  · exact h
  · exact le_rfl

/-- A table of one value. -/
example (l : Limits) : TablePositive (fun _ _ _ => ⟨5000, 15000, 3⟩) l := fun _ _ _ _ _ _ _ _ => by norm_num

/-- Checks that a model is not a multi-pass system. -/
def Preset.onePass (p : Preset) : Bool :=
  decide (p.k ≠ 0) && (List.finRange p.k).all fun i =>
    match (p.src i).cfg.kind with
    | .condenser c => !decide (c.configuration = .external) || !c.isMultipass
    | .resistance _ => true

theorem onePass_of {p : Preset} (h : p.onePass = true) : OnePass p := by
  unfold Preset.onePass at h
  rw [Bool.and_eq_true, decide_eq_true_eq, List.all_eq_true] at h
  refine ⟨h.1, fun i c hc he => ?_⟩
  have hi := h.2 i (List.mem_finRange i)
  rw [hc] at hi
  simpa [he] using hi

/-- Most models are not. -/
example : (Presets.table.filter fun q => q.2.onePass).length = 88 ∧ Presets.table.length = 108 := by
  decide +kernel

/-- One minute of one of them, with a draw: it heats. -/
example : ("Stiebel220E", Presets.Stiebel220E) ∈ Presets.table ∧ OnePass Presets.Stiebel220E ∧
    ∃ s, Presets.Stiebel220E.initLegacy sampleLibm coarsePow (fun _ _ _ => ⟨0, 0, 0⟩) sampleSim = .ok s ∧
    ∃ s', Sim.runNSteps sampleLibm 20 s [⟨10, 100, 20, 20, ⟨false, false, false, false⟩⟩] = .ok s' ∧
      ∃ i, 0 < (s'.st i).energyOutput_kWh :=
  ⟨by unfold Presets.table; simp, onePass_of (by decide +kernel), by decide +kernel⟩

/-- One minute of a central system, with a draw: it heats. -/
example : ("TamScalable_SP", Presets.TamScalable_SP) ∈ Presets.table ∧ OnePass Presets.TamScalable_SP ∧
    ∃ s, Presets.TamScalable_SP.initLegacy sampleLibm coarsePow (fun _ _ _ => ⟨0, 0, 0⟩) sampleSim = .ok s ∧
    ∃ s', Sim.runNSteps sampleLibm 20 s [⟨10, 1000, 20, 20, ⟨false, false, false, false⟩⟩] = .ok s' ∧
      ∃ i, 0 < (s'.st i).energyOutput_kWh :=
  ⟨by unfold Presets.table; simp, onePass_of (by decide +kernel), by decide +kernel⟩

end HPWH
