import Verif.Props.Progress
import Verif.Props.PresetRuns

/-! # Runs of the built-in models do not fail (C100) -/

namespace HPWH

open Spec
open _root_.HPWH.Units

variable {n k n₀ k₀ : ℕ}

/-! ## Polynomials are bounded -/

/-- Bounded on a set. -/
def BoundedOn {ι : Type} (S : ι → Prop) (f : ι → ℚ) : Prop := ∃ B, ∀ i, S i → |f i| ≤ B

namespace BoundedOn

variable {ι : Type} {S : ι → Prop} {f g : ι → ℚ}

theorem const (c : ℚ) : BoundedOn S fun _ => c := ⟨|c|, fun _ _ => le_rfl⟩

theorem add : BoundedOn S f → BoundedOn S g → BoundedOn S fun i => f i + g i := by
  rintro ⟨a, ha⟩ ⟨b, hb⟩
  exact ⟨a + b, fun i hi => (abs_add_le _ _).trans (add_le_add (ha i hi) (hb i hi))⟩

theorem mul : BoundedOn S f → BoundedOn S g → BoundedOn S fun i => f i * g i := by
  rintro ⟨a, ha⟩ ⟨b, hb⟩
  refine ⟨a * b, fun i hi => ?_⟩
  rw [abs_mul]
  exact mul_le_mul (ha i hi) (hb i hi) (abs_nonneg _) ((abs_nonneg _).trans (ha i hi))

theorem sub (hf : BoundedOn S f) (hg : BoundedOn S g) : BoundedOn S fun i => f i - g i := by
  have := hf.add ((const (-1)).mul hg)
  simpa [sub_eq_add_neg] using this

theorem div (hf : BoundedOn S f) (c : ℚ) : BoundedOn S fun i => f i / c := by
  have := hf.mul (const (S := S) c⁻¹)
  simpa [div_eq_mul_inv] using this

theorem between {lo hi : ℚ} (h : ∀ i, S i → lo ≤ f i ∧ f i ≤ hi) : BoundedOn S f :=
  ⟨max |lo| |hi|, fun i hi' => abs_le_max_abs_abs (h i hi').1 (h i hi').2⟩

end BoundedOn

/-- One bound for the elements of a list. -/
theorem list_bound {α : Type} {P : α → ℚ → Prop} (mono : ∀ a b c, b ≤ c → P a b → P a c) :
    ∀ l : List α, (∀ a ∈ l, ∃ b, P a b) → ∃ b, ∀ a ∈ l, P a b
  | [], _ => ⟨0, by simp⟩
  | a :: l, h => by
    obtain ⟨b, hb⟩ := list_bound mono l fun c hc => h c (by simp [hc])
    obtain ⟨b', hb'⟩ := h a (by simp)
    refine ⟨max b b', fun c hc => ?_⟩
    rcases List.mem_cons.mp hc with rfl | hc
    · exact mono _ _ _ (le_max_right _ _) hb'
    · exact mono _ _ _ (le_max_left _ _) (hb c hc)

theorem quadratic_bounded {ι : Type} {S : ι → Prop} {x : ι → ℚ} (hx : BoundedOn S x) (c : List ℚ) :
    ∃ f, BoundedOn S f ∧ ∀ i y, PolySet.quadratic c (x i) = .ok y → y = f i := by
  unfold PolySet.quadratic
  split
  · rename_i c0 c1 c2 _
    exact ⟨_, ((BoundedOn.const c0).add ((BoundedOn.const c1).mul hx)).add (((BoundedOn.const c2).mul hx).mul hx),
      fun i y h => (Except.ok.inj h).symm⟩
  · exact ⟨_, BoundedOn.const 0, fun i y h => by cases h⟩

theorem regressed_bounded {ι : Type} {S : ι → Prop} {x y z : ι → ℚ} (hx : BoundedOn S x) (hy : BoundedOn S y)
    (hz : BoundedOn S z) (c : List ℚ) :
    ∃ f, BoundedOn S f ∧ ∀ i v, regressedMethod c (x i) (y i) (z i) = .ok v → v = f i := by
  unfold regressedMethod
  split
  · rename_i c0 c1 c2 c3 c4 c5 c6 c7 c8 c9 c10 _
    have t (c : ℚ) : BoundedOn S fun _ => c := .const c
    exact ⟨_, (((((((((((t c0).add ((t c1).mul hx)).add ((t c2).mul hy)).add ((t c3).mul hz)).add
      (((t c4).mul hx).mul hx)).add (((t c5).mul hy).mul hy)).add (((t c6).mul hz).mul hz)).add
      (((t c7).mul hx).mul hy)).add (((t c8).mul hx).mul hz)).add (((t c9).mul hy).mul hz)).add
      ((((t c10).mul hx).mul hy).mul hz)), fun i v h => (Except.ok.inj h).symm⟩
  · exact ⟨_, BoundedOn.const 0, fun i y h => by cases h⟩

theorem entry_mem {ps : PolySet} {i : ℕ} {p : Poly} (h : ps.entry i = .ok p) : p ∈ ps := by
  unfold PolySet.entry at h
  split at h
  · rename_i q e
    cases h
    exact List.mem_of_getElem? e
  · cases h

/-- What a set of polynomials gives is bounded where the temperatures are. -/
theorem PolySet.bounded {ι : Type} {S : ι → Prop} {air water : ι → ℚ} (ha : BoundedOn S fun i => C_TO_F (air i))
    (hw : BoundedOn S fun i => C_TO_F (water i)) (ps : PolySet) :
    BoundedOn S fun i => (ps.make 0 (air i) (water i)).cop * (ps.make 0 (air i) (water i)).inputPower_W := by
  have key : ∀ a ∈ ps, ∀ b ∈ ps, ∃ B : ℚ, ∀ i, S i → ∀ cop1 cop2 in1 in2 cop input,
      quadratic a.cop (C_TO_F (water i)) = .ok cop1 → quadratic b.cop (C_TO_F (water i)) = .ok cop2 →
      quadratic a.input (C_TO_F (water i)) = .ok in1 → quadratic b.input (C_TO_F (water i)) = .ok in2 →
      linearInterp (C_TO_F (air i)) a.T_F b.T_F cop1 cop2 = .ok cop →
      linearInterp (C_TO_F (air i)) a.T_F b.T_F in1 in2 = .ok input → |cop * input| ≤ B := by
    intro a _ b _
    obtain ⟨f1, b1, e1⟩ := quadratic_bounded hw a.cop
    obtain ⟨f2, b2, e2⟩ := quadratic_bounded hw b.cop
    obtain ⟨f3, b3, e3⟩ := quadratic_bounded hw a.input
    obtain ⟨f4, b4, e4⟩ := quadratic_bounded hw b.input
    have t := ha.sub (BoundedOn.const a.T_F)
    obtain ⟨B, hB⟩ := (b1.add ((t.mul (b2.sub b1)).div (b.T_F - a.T_F))).mul
      (b3.add ((t.mul (b4.sub b3)).div (b.T_F - a.T_F)))
    refine ⟨B, fun i hi cop1 cop2 in1 in2 cop input h1 h2 h3 h4 h5 h6 => ?_⟩
    have := hB i hi
    dsimp only at this
    rw [← e1 _ _ h1, ← e2 _ _ h2, ← e3 _ _ h3, ← e4 _ _ h4] at this
    unfold linearInterp at h5 h6
    split at h5
    · cases h5
    · rename_i hne
      rw [if_neg hne] at h6
      cases h5; cases h6
      exact this
  have := list_bound (P := fun (a : Poly) B => ∀ b ∈ ps, ∀ i, S i → ∀ cop1 cop2 in1 in2 cop input,
      quadratic a.cop (C_TO_F (water i)) = .ok cop1 → quadratic b.cop (C_TO_F (water i)) = .ok cop2 →
      quadratic a.input (C_TO_F (water i)) = .ok in1 → quadratic b.input (C_TO_F (water i)) = .ok in2 →
      linearInterp (C_TO_F (air i)) a.T_F b.T_F cop1 cop2 = .ok cop →
      linearInterp (C_TO_F (air i)) a.T_F b.T_F in1 in2 = .ok input → |cop * input| ≤ B)
    (fun a x y hxy h b hb i hi c1 c2 i1 i2 c p e1 e2 e3 e4 e5 e6 => (h b hb i hi c1 c2 i1 i2 c p e1 e2 e3 e4 e5 e6).trans hxy)
    ps fun a ha => list_bound (fun b x y hxy h i hi c1 c2 i1 i2 c p e1 e2 e3 e4 e5 e6 =>
      (h i hi c1 c2 i1 i2 c p e1 e2 e3 e4 e5 e6).trans hxy) ps (key a ha)
  obtain ⟨B, hB⟩ := this
  refine ⟨max B 0, fun i hi => ?_⟩
  dsimp only [PolySet.make]
  split
  · rename_i r e
    unfold PolySet.evaluate at e
    simp only [bind_ok_iff] at e
    obtain ⟨ij, -, a, h1, b, h2, cop1, q1, cop2, q2, in1, q3, in2, q4, cop, q5, input, q6, e⟩ := e
    cases e
    exact (hB a (entry_mem h1) b (entry_mem h2) i hi _ _ _ _ _ _ q1 q2 q3 q4 q5 q6).trans (le_max_left _ _)
  · simp

/-- So is what a regression gives. -/
theorem Poly.singlePass_bounded {ι : Type} {S : ι → Prop} {x air water : ι → ℚ} {offset : ℚ}
    (hx : BoundedOn S fun i => C_TO_F (x i + offset))
    (ha : BoundedOn S fun i => C_TO_F (air i)) (hw : BoundedOn S fun i => C_TO_F (water i)) (q : Poly) :
    ∃ B, ∀ i, S i → ∀ r, q.singlePass (x i) offset (air i) (water i) = .ok r → |r.cop * r.inputPower_W| ≤ B := by
  obtain ⟨f1, b1, e1⟩ := regressed_bounded ha hx hw q.input
  obtain ⟨f2, b2, e2⟩ := regressed_bounded ha hx hw q.cop
  obtain ⟨B, hB⟩ := b2.mul ((BoundedOn.const 1000).mul b1)
  refine ⟨B, fun i hi r h => ?_⟩
  unfold Poly.singlePass at h
  simp only [bind_ok_iff] at h
  obtain ⟨input, h1, cop, h2, h⟩ := h
  cases h
  have := hB i hi
  dsimp only at this
  rw [← e1 _ _ h1, ← e2 _ _ h2] at this
  exact this

/-! ## The built-in models -/

/-- So is the output power. -/
theorem output_bounded {c : CondCfg} {l : Limits} {x a : ℚ} (hd : c.doDefrost = false ∨ c.defrostMap = standardDefrost)
    (ha : a = 1) (hev : ∃ top, ∀ air water, l.air air → l.water water → ∀ e,
      c.evaluate x (if decide (c.resDefrostPower_kW > 0) && decide (air < F_TO_C c.resDefrostOnBelow_F) then
        air + dF_TO_dC c.resDefrostLift_dF else air) (water + c.coldSideOffset) = e → |e.cop * e.inputPower_W| ≤ top) :
    ∃ top : ℚ, ∀ air water perf, l.air air → l.water water → c.getPerformance a x air water = .ok perf →
      perf.outputPower_W ≤ top := by
  subst ha
  obtain ⟨top, hev⟩ := hev
  refine ⟨top * |c.copScale * c.inputPowerScale|, fun air water perf hair hw hp => ?_⟩
  have hev := hev air water hair hw _ rfl
  unfold CondCfg.getPerformance at hp
  dsimp only at hp
  set e := c.evaluate x (if decide (c.resDefrostPower_kW > 0) && decide (air < F_TO_C c.resDefrostOnBelow_F) then
        air + dF_TO_dC c.resDefrostLift_dF else air) (water + c.coldSideOffset) with he
  have base : ∀ f : ℚ, 0 < f → f ≤ 1 → e.cop * c.copScale * f * (e.inputPower_W * c.inputPowerScale) ≤
      top * |c.copScale * c.inputPowerScale| := fun f f0 f1 => by
    calc e.cop * c.copScale * f * (e.inputPower_W * c.inputPowerScale)
        = (e.cop * e.inputPower_W) * (c.copScale * c.inputPowerScale) * f := by ring
      _ ≤ |(e.cop * e.inputPower_W) * (c.copScale * c.inputPowerScale) * f| := le_abs_self _
      _ = |e.cop * e.inputPower_W| * |c.copScale * c.inputPowerScale| * f := by
        rw [abs_mul, abs_mul, abs_of_pos f0]
      _ ≤ top * |c.copScale * c.inputPowerScale| * 1 := by
        have := (abs_nonneg _).trans hev
        gcongr
      _ = _ := mul_one _
  by_cases hdd : c.doDefrost = true
  · rcases hd with hd | hd
    · rw [hd] at hdd; cases hdd
    obtain ⟨f, hf, h1, h2, -⟩ := C26_defrost_factor sampleCond rfl (8865 / 10000) (by norm_num)
      (C_TO_F (if decide (c.resDefrostPower_kW > 0) &&
        decide (air < F_TO_C c.resDefrostOnBelow_F) then air + dF_TO_dC c.resDefrostLift_dF else air))
    have hf : CondCfg.defrostFactor standardDefrost _ = .ok f := hf
    simp only [hdd, if_true, hd, hf, bind, Except.bind, pure, Except.pure, ne_eq, not_true_eq_false, if_false] at hp
    cases hp
    exact base f (by linarith) h2
  · simp only [hdd, Bool.false_eq_true, bind, Except.bind, pure, Except.pure, ne_eq, not_true_eq_false, if_false] at hp
    cases hp
    simpa using base 1 one_pos le_rfl

theorem bounded_air (l : Limits) : BoundedOn (fun i : ℚ × ℚ => l.air i.1 ∧ l.water i.2) fun i => C_TO_F i.1 := by
  refine .between (lo := l.airLo) (hi := l.airHi) fun i hi => ?_
  have h := hi.1
  unfold Limits.air at h
  unfold C_TO_F FperC offsetF
  constructor <;> linarith [h.1, h.2]

theorem bounded_water (l : Limits) : BoundedOn (fun i : ℚ × ℚ => l.air i.1 ∧ l.water i.2) fun i => C_TO_F i.2 := by
  refine .between (lo := l.waterLo) (hi := l.waterHi) fun i hi => ?_
  have h := hi.2
  unfold Limits.water at h
  unfold C_TO_F FperC offsetF
  constructor <;> linarith [h.1, h.2]

/-- The output of a heat pump that does not heat in several passes is bounded within the limits. -/
theorem pump_bounded {p : Preset} {l : Limits} {i : Fin p.k} {c : CondCfg} (h : p.pumpPos l i c = true)
    (hm : ∀ q, (p.src i).perf ≠ .multiPass q) (grid : ℚ → ℚ → ℚ → Perf) (hgrid : HasTable p → TableBounded grid l) {x : ℚ}
    (hx : (∀ ps, (p.src i).perf ≠ .polys ps) → UsualSetpoint x) :
    ∃ top : ℚ, ∀ air water perf, l.air air → l.water water →
      ({ c with evaluate := (p.src i).perf.make grid c } : CondCfg).getPerformance
        (p.src i).cfg.airflowFreedom x air water = .ok perf → perf.outputPower_W ≤ top := by
  unfold Preset.pumpPos at h
  simp only [Bool.and_eq_true, Bool.or_eq_true, Bool.not_eq_true', decide_eq_true_eq] at h
  obtain ⟨⟨⟨⟨h1, h4⟩, h5⟩, h6⟩, h7⟩ := h
  refine output_bounded (l := l) h4 h7 ?_
  split at h1
  · cases h1
  · rename_i ps e
    simp only [Bool.and_eq_true, decide_eq_true_eq] at h1
    obtain ⟨⟨-, h2⟩, h3⟩ := h1
    obtain ⟨B, hB⟩ := PolySet.bounded (bounded_air l) (bounded_water l) ps
    refine ⟨B, fun air water ha hw r hr => ?_⟩
    simp only [h2, h3, e, PerfData.make, add_zero, lt_irrefl, decide_false, Bool.false_and,
      Bool.false_eq_true, if_false] at hr
    subst hr
    exact hB (air, water) ⟨ha, hw⟩
  · rename_i q e
    simp only [Bool.and_eq_true, decide_eq_true_eq] at h1
    obtain ⟨⟨⟨-, h2⟩, h3⟩, h8⟩ := h1
    obtain ⟨B, hB⟩ := Poly.singlePass_bounded (x := fun _ => x) (BoundedOn.const (C_TO_F (x + 0))) (bounded_air l)
      (bounded_water l) q
    refine ⟨max B 0, fun air water ha hw r hr => ?_⟩
    simp only [h2, h3, h8, e, PerfData.make, add_zero, lt_irrefl, decide_false, Bool.false_and,
      Bool.false_eq_true, if_false] at hr
    split at hr
    · rename_i r' e'
      subst hr
      exact (hB (air, water) ⟨ha, hw⟩ _ e').trans (le_max_left _ _)
    · subst hr; simp
  · rename_i q e
    exact absurd e (hm q)
  · rename_i e
    simp only [Bool.and_eq_true, decide_eq_true_eq] at h1
    obtain ⟨⟨⟨⟨c1, c2⟩, c3⟩, c4⟩, c5⟩ := h1
    have hu := hx (fun ps => by rw [e]; exact fun h => by cases h)
    have lift : dF_TO_dC c.resDefrostLift_dF * 9 / 5 = c.resDefrostLift_dF := by
      unfold dF_TO_dC FperC; ring
    obtain ⟨B, hB⟩ := hgrid ⟨i, e⟩
    refine ⟨B, fun air water ha hw r hr => ?_⟩
    have a1 := ha.1; have a2 := ha.2; have w1 := hw.1; have w2 := hw.2
    subst hr
    rw [e]
    exact hB x _ (water + c.coldSideOffset) hu (by split <;> linarith) (by split <;> linarith) (by linarith) (by linarith)

/-- Checks that a logic can be evaluated. -/
def Logic.usableOk (l : Logic) : Bool :=
  match l.kind with
  | .temp _ (.weighted d) => d.isValid && d.all fun q => decide (0 ≤ q.weight)
  | .temp _ _ => true
  | .soc _ _ _ _ => false

theorem Logic.usableOk_usable {l : Logic} (h : l.usableOk = true) (p : Plant n) : l.Usable p := by
  unfold Logic.usableOk at h
  unfold Logic.Usable
  split at h <;> rename_i e <;> simp only [e]
  · simp only [Bool.and_eq_true, List.all_eq_true, decide_eq_true_eq] at h
    exact ⟨h.1, h.2⟩
  · cases h

/-- Checks that a heat pump fits the model. -/
def Preset.fits (p : Preset) (i : Fin p.k) (c : CondCfg) : Bool :=
  decide (p.setpoint < c.maxOutT) && ((p.src i).cfg.backup.isNone || decide (p.setpoint ≤ c.maxSetpoint)) &&
  (!decide (c.configuration = .external) || c.isMultipass ||
    decide ((p.src i).cfg.externalOutlet = 0) &&
    (match (p.src i).perf with | .multiPass _ => false | _ => true) &&
    (p.src i).cfg.shutOff.any fun l => match l.kind with
      | .temp true _ => decide (l.decisionPoint < min c.maxSetpoint p.setpoint)
      | .temp false _ => decide (p.setpoint - l.decisionPoint < min c.maxSetpoint p.setpoint)
      | .soc _ _ _ _ => false)

/-- Checks that a model is ready. -/
def Preset.ready (p : Preset) : Bool :=
  (List.finRange p.k).all fun i =>
    (p.src i).cfg.turnOn.all Logic.usableOk && (p.src i).cfg.shutOff.all Logic.usableOk &&
    (p.src i).cfg.standby.all Logic.usableOk &&
    match (p.src i).cfg.kind with
    | .resistance _ => true
    | .condenser c => p.fits i c

/-- All models pass. -/
theorem table_ready : ∀ q ∈ Presets.table, q.2.ready = true := by decide +kernel

/-- The models as delivered are ready for water and air within the limits. -/
theorem preset_ready (m : Libm) (pow : ℚ → ℚ → ℚ) (hp : PowPos pow) (grid : ℚ → ℚ → ℚ → Perf) (base : Sim n₀ k₀)
    (q : String × Preset) (hq : q ∈ Presets.table) (hone : OnePass q.2)
    (hgrid : HasTable q.2 → TableBounded grid (limits q.1)) (s : Sim q.2.n q.2.k)
    (hs : q.2.initLegacy m pow grid base = .ok s) (inletT : ℚ) :
    (s.setInletT inletT).Ready (((limits q.1).waterLo - 32) * 5 / 9)
      ((((limits q.1).waterHi - 32) * 5 / 9 : ℚ) : WithTop ℚ) (((limits q.1).airLo - 32) * 5 / 9)
      (((limits q.1).airHi - 32) * 5 / 9) := by
  have hd := (C85_delivered m pow hp grid base q hq s hs).1
  have hrd := table_ready q hq
  unfold Preset.ready at hrd
  rw [List.all_eq_true] at hrd
  have hwk := works_of q hq hone
  unfold Preset.works at hwk
  simp only [Bool.and_eq_true, decide_eq_true_eq] at hwk
  have hsrc (i : Fin q.2.k) : (s.cfg.src i).turnOn = (q.2.src i).cfg.turnOn ∧
      (s.cfg.src i).shutOff = (q.2.src i).cfg.shutOff ∧ (s.cfg.src i).standby = (q.2.src i).cfg.standby ∧
      (s.cfg.src i).backup = (q.2.src i).cfg.backup ∧ (s.cfg.src i).externalOutlet = (q.2.src i).cfg.externalOutlet ∧
      (s.cfg.src i).airflowFreedom = (q.2.src i).cfg.airflowFreedom := by
    rw [hd.source i, source_cfg]
    exact ⟨rfl, rfl, rfl, rfl, rfl, rfl⟩
  have hpump (i : Fin q.2.k) (c : CondCfg) (hc : (s.cfg.src i).kind = .condenser c) :
      ∃ c0, (q.2.src i).cfg.kind = .condenser c0 ∧ c = { c0 with evaluate := (q.2.src i).perf.make grid c0 } ∧
        q.2.fits i c0 = true ∧ q.2.pumpOk (limits q.1) i c0 = true := by
    rw [hd.source i] at hc
    obtain ⟨c0, k0, e⟩ := source_heatPump (show IsHeatPump ((q.2.src i).source grid) c from hc)
    have h1 := hrd i (List.mem_finRange i)
    simp only [Bool.and_eq_true, k0] at h1
    have h2 := hwk.2 i
    unfold Preset.sourceWorks at h2
    rw [k0] at h2
    exact ⟨c0, k0, e, h1.2, h2⟩
  have hsp : (s.setInletT inletT).setpoint = q.2.setpoint := hd.setpoint
  have hat (i : Fin q.2.k) (c : CondCfg) (x : ℚ) (hc : (s.cfg.src i).kind = .condenser c)
      (hx : c.RunsAt (s.setInletT inletT).setpoint x) : x = q.2.setpoint := by
    obtain ⟨c0, -, rfl, hf, -⟩ := hpump i c hc
    rw [hsp] at hx
    unfold Preset.fits at hf
    simp only [Bool.and_eq_true, decide_eq_true_eq] at hf
    rcases hx with hx | ⟨-, hx⟩
    · exact hx
    · exact absurd hx (not_le.mpr hf.1.1)
  have hwarm (i : Fin q.2.k) (c : CondCfg) (hc : (s.cfg.src i).kind = .condenser c) :
      ¬ c.maxOutT ≤ (s.setInletT inletT).setpoint := fun h => by
    obtain ⟨c0, -, rfl, hf, -⟩ := hpump i c hc
    rw [hsp] at h
    unfold Preset.fits at hf
    simp only [Bool.and_eq_true, decide_eq_true_eq] at hf
    exact absurd h (not_le.mpr hf.1.1)
  have hext (i : Fin q.2.k) (c : CondCfg) (hc : (s.cfg.src i).kind = .condenser c) (he : c.configuration = .external)
      (hm : c.isMultipass = false) : (q.2.src i).cfg.externalOutlet = 0 ∧ (∀ r, (q.2.src i).perf ≠ .multiPass r) ∧
      ∃ l ∈ (q.2.src i).cfg.shutOff, l.comparisonValue { s.toPlant with setpoint := q.2.setpoint } <
        min c.maxSetpoint q.2.setpoint := by
    obtain ⟨c0, -, rfl, hf, -⟩ := hpump i c hc
    have he : c0.configuration = .external := he
    have hm : c0.isMultipass = false := hm
    unfold Preset.fits at hf
    rw [Bool.and_eq_true] at hf
    have h2 := hf.2
    simp only [he, hm, decide_true, Bool.not_true, Bool.false_or, Bool.and_eq_true, decide_eq_true_eq,
      List.any_eq_true] at h2
    obtain ⟨⟨g1, g2⟩, l, hl, g3⟩ := h2
    refine ⟨g1, fun r hr => ?_, l, hl, ?_⟩
    · rw [hr] at g2; cases g2
    · unfold Logic.comparisonValue
      split at g3 <;> rename_i e <;> simp only [e]
      · simpa using g3
      · simpa using g3
      · cases g3
  refine
    { step := by show 0 < s.cfg.minutesPerStep; rw [hd.step]; norm_num
      minute := fun h => hd.step
      logics := fun i l hl => ?_
      defrost := fun i c hc hdd => ?_
      coldAir := fun i c air hc _ _ h => absurd h (hwarm i c hc)
      charge := fun i c r hc hr h => absurd h (hwarm i c hc)
      backup := fun i c hc hb => ?_
      looksAbove := fun i c hc he hm l hl => ?_
      bounded := fun i c hc he hm => ?_
      finishes := fun i c x hc he hm hx => .inl ?_ }
  · have h1 := hrd i (List.mem_finRange i)
    simp only [Bool.and_eq_true, List.all_eq_true] at h1
    obtain ⟨⟨⟨g1, g2⟩, g3⟩, -⟩ := h1
    have hl : l ∈ (s.cfg.src i).turnOn ∨ l ∈ (s.cfg.src i).shutOff ∨ (s.cfg.src i).standby = some l := hl
    rw [(hsrc i).1, (hsrc i).2.1, (hsrc i).2.2.1] at hl
    rcases hl with hl | hl | hl
    · exact Logic.usableOk_usable (g1 l hl) _
    · exact Logic.usableOk_usable (g2 l hl) _
    · rw [hl] at g3
      exact Logic.usableOk_usable g3 _
  · obtain ⟨c0, -, rfl, -, hk⟩ := hpump i c hc
    unfold Preset.pumpOk Preset.pumpPos at hk
    simp only [Bool.and_eq_true, Bool.or_eq_true, Bool.not_eq_true', decide_eq_true_eq] at hk
    rcases hk.1.1.1.1.1.2 with h | h
    · have hdd : c0.doDefrost = true := hdd
      rw [h] at hdd; cases hdd
    · show c0.defrostMap ≠ []
      rw [h]; decide
  · obtain ⟨c0, -, rfl, hf, -⟩ := hpump i c hc
    rw [hsp]
    have hb : (s.cfg.src i).backup ≠ none := hb
    rw [(hsrc i).2.2.2.1] at hb
    unfold Preset.fits at hf
    simp only [Bool.and_eq_true, decide_eq_true_eq, Bool.or_eq_true, Option.isNone_iff_eq_none] at hf
    exact hf.1.2.resolve_left hb
  · have h0 := (hext i c hc he hm).1
    have h1 : ((s.setInletT inletT).cfg.src i).externalOutlet = 0 := (hsrc i).2.2.2.2.1.trans h0
    rw [h1]
    have hu : l.usableOk = true := by
      have h1 := hrd i (List.mem_finRange i)
      simp only [Bool.and_eq_true, List.all_eq_true] at h1
      have hl : l ∈ (s.cfg.src i).shutOff := hl
      rw [(hsrc i).2.1] at hl
      exact h1.1.1.2 l hl
    unfold Logic.usableOk at hu
    unfold Logic.LooksAbove
    split
    · rfl
    · trivial
    · intro j hj; exact absurd hj (Fin.not_lt_zero j)
    · rename_i e
      rw [e] at hu; cases hu
  · obtain ⟨-, g2, -⟩ := hext i c hc he hm
    obtain ⟨c0, k0, rfl, -, hk⟩ := hpump i c hc
    unfold Preset.pumpOk at hk
    rw [Bool.and_eq_true, Bool.and_eq_true] at hk
    obtain ⟨top, ht⟩ := pump_bounded hk.1.1 g2 grid hgrid (x := q.2.setpoint) (fun hne => by
      have h9 := hk.2
      split at h9
      · rename_i ps e; exact absurd e (hne ps)
      · simp only [Bool.and_eq_true, decide_eq_true_eq] at h9
        exact ⟨h9.1.1.1, h9.1.1.2⟩)
    refine ⟨top, fun x air water perf hx ha hw hpf => ?_⟩
    have hx := hat i _ x hc hx
    subst hx
    have e3 : ((s.setInletT inletT).cfg.src i).airflowFreedom = (q.2.src i).cfg.airflowFreedom := (hsrc i).2.2.2.2.2
    rw [e3] at hpf
    exact ht air water perf (lies_limits.mp ha) (lies_limits.mp hw) hpf
  · have hx := hat i c x hc hx
    subst hx
    obtain ⟨-, -, l, hl, g⟩ := hext i c hc he hm
    refine ⟨l, ?_, g⟩
    show l ∈ (s.cfg.src i).shutOff
    rw [(hsrc i).2.1]; exact hl

/-- **C100.** A run of any number of minutes of a built-in model other than a central multi-pass system, as delivered,
does not fail, with water and air within the limits and some water drawn. By C86 it then keeps the temperatures within the
limits and balances. Where the performance is given by a table, if Btwxt gives positive and bounded values. -/
theorem C100_built_in (m : Libm) (hexp : ∀ x, 0 ≤ m.exp x) (hlog : LogLike m.log) (pow : ℚ → ℚ → ℚ) (hp : PowPos pow)
    (hp1 : ∀ x y, 0 ≤ x → x ≤ 1 → 0 ≤ pow x y ∧ pow x y ≤ 1) (hbig : ∀ x, 1 ≤ x → pow x (1 / 3) ≤ x)
    (hroot : CubeRoots pow) (grid : ℚ → ℚ → ℚ → Perf)
    (base : Sim n₀ k₀) (q : String × Preset) (hq : q ∈ Presets.table) (hone : OnePass q.2)
    (hgrid : HasTable q.2 → TablePositive grid (limits q.1) ∧ TableBounded grid (limits q.1)) (s : Sim q.2.n q.2.k)
    (hs : q.2.initLegacy m pow grid base = .ok s) (us : List Sim.RunInput)
    (hu : ∀ u ∈ us, 0 ≤ u.draw_L ∧ (limits q.1).water u.inletT ∧ (limits q.1).water u.tankAmbient ∧
      (limits q.1).air u.sourceAmbient ∧
      (q.2.hasHeatExchanger = true → u.draw_L ≤ s.tank.volume_L / (q.2.n + 1)))
    (hdraw : ∃ u ∈ us, 0 < u.draw_L) :
    Returns fun fuel => Sim.runNSteps m fuel s us := by
  have hb := works_between (Preset.accepts_iff (table_accepts q hq)) (works_of q hq hone) m hlog pow hp hp1 hbig hroot grid
    (fun h => (hgrid h).1) base s hs
  have hd := (C85_delivered m pow hp grid base q hq s hs).1
  refine C100_run m hexp s us _ _ _ _ hb (fun u hu' => ?_) (fun u _ => ⟨preset_ready m pow hp grid base q hq hone
    (fun h => (hgrid h).2) s hs u.inletT, fun r hr => ?_⟩) hdraw
  · obtain ⟨u1, u2, u3, u4, u5⟩ := hu u hu'
    refine ⟨u1, le_refl 0, lies_limits.mpr u2, .inl rfl, fun hh => ?_, rfl, lies_limits.mpr u3,
      fun _ => lies_limits.mpr u4, fun hh => (by rw [hd.room] at hh; cases hh)⟩
    have he := hb.effectiveness hh
    rw [hd.exchanger] at hh
    have h5 := u5 hh
    rw [hb.nodeVolume]
    calc s.tank.nodeHeatExchangerEffectiveness * u.draw_L ≤ 1 * u.draw_L :=
          mul_le_mul_of_nonneg_right he.2 u1
      _ ≤ _ := by rw [one_mul]; exact h5
  · have hr : s.socControl = some r := hr
    rw [hd.control] at hr; cases hr

/-- An application: a single-pass system described by a table, drawn one litre in every minute. -/
example (N : ℕ) : ∃ s, Presets.Mitsubishi_QAHV_N136TAU_HPB_SP.initLegacy sampleLibm coarsePow (fun _ _ _ => ⟨5000, 15000, 3⟩)
      sampleSim = .ok s ∧
    Returns fun fuel => Sim.runNSteps sampleLibm fuel s
      (List.replicate (N + 1) ⟨10, 1, 20, 20, ⟨false, false, false, false⟩⟩) := by
  have hq : ("Mitsubishi_QAHV_N136TAU_HPB_SP", Presets.Mitsubishi_QAHV_N136TAU_HPB_SP) ∈ Presets.table := by
    unfold Presets.table; simp
  obtain ⟨s, hs⟩ := C85_accepted sampleLibm coarsePow coarsePow_ok.1 (fun _ _ _ => ⟨5000, 15000, 3⟩) sampleSim _ hq
  refine ⟨s, hs, C100_built_in sampleLibm (fun _ => by norm_num [sampleLibm])
    ⟨rfl, fun _ _ _ _ => le_refl _, fun _ _ => by norm_num [sampleLibm]⟩ coarsePow coarsePow_ok.1 coarsePow_ok.2.1
    (fun x h => ?_) coarsePow_ok.2.2 _ _ _ hq (onePass_of (by decide +kernel))
    (fun _ => ⟨fun _ _ _ _ _ _ _ _ => by norm_num, 15000, fun _ _ _ _ _ _ _ _ => by norm_num⟩) s hs _ (fun u hu => ?_)
    ⟨_, List.mem_replicate.mpr ⟨Nat.succ_ne_zero N, rfl⟩, one_pos⟩⟩
  · unfold coarsePow
    split
    · exact h
    · exact le_rfl
  · rw [(List.mem_replicate.mp hu).2]
    refine ⟨zero_le_one, ?_, ?_, ?_, fun h => by cases h⟩ <;> (simp only [Limits.water, Limits.air]; decide +kernel)

end HPWH
