import Verif.Props.Accept
import Verif.Model.Init
import Verif.Spec.Init

/-! # Resistance tanks built from a few numbers (C81) -/

namespace HPWH

open Spec
open _root_.HPWH.Units

variable {n k n₀ k₀ : ℕ}

/-! ## Derived values are always found -/

theorem indexFold_total {src : Fin k → SourceCfg n k} (hv : ∀ i, (src i).heatDist.isValid = true) :
    ∀ (l : List (Fin k)) (a : Indices k), ∃ b, l.foldlM (indexStep src) a = .ok b
  | [], a => ⟨a, rfl⟩
  | i :: l, a => by
    have h1 : ∃ b, indexStep src a i = .ok b := by
      unfold indexStep
      cases (src i).kind with
      | condenser c => exact ⟨_, rfl⟩
      | resistance w =>
        obtain ⟨x, hx, -⟩ := WDist.lowestNormalizedHeight_valid (hv i)
        simp only [hx]
        exact ⟨_, rfl⟩
    obtain ⟨b, hb⟩ := h1
    obtain ⟨c, hc⟩ := indexFold_total hv l b
    exact ⟨c, by rw [List.foldlM_cons, hb]; exact hc⟩

theorem positions_total {src : Fin k → SourceCfg n k} (hv : ∀ i, (src i).heatDist.isValid = true) :
    ∀ l : List (Fin k), ∃ r, (l.mapM fun i => do
      let p ← resistancePosition (src i).heatDist
      return (i, p) : Res (List (Fin k × ℕ))) = .ok r
  | [] => ⟨[], rfl⟩
  | i :: l => by
    obtain ⟨x, hx, -⟩ := WDist.lowestNormalizedHeight_valid (hv i)
    obtain ⟨r, hr⟩ := positions_total hv l
    refine ⟨(i, ⌊12 * x⌋₊) :: r, ?_⟩
    rw [List.mapM_cons, hr]
    simp only [resistancePosition, hx]
    rfl

/-- With valid heat distributions and a positive volume, the derived values can be computed. -/
theorem calcDerived_total (m : Libm) (pow : ℚ → ℚ → ℚ) (hp : PowPos pow) (s : Sim n k)
    (hv : ∀ i, (s.cfg.src i).heatDist.isValid = true) (hV : 0 < s.tank.volume_L) :
    ∃ s1, s.calcDerivedValues m pow = .ok s1 := by
  obtain ⟨ix, h1⟩ := indexFold_total hv (List.finRange k) ⟨none, none, none, none, 1, 0⟩
  obtain ⟨t, h2, -⟩ := C41_sizes pow hp s.tank hV
  obtain ⟨mp, h3⟩ := positions_total hv ((List.finRange k).filter fun i => !(s.cfg.src i).kind.isCompressor)
  unfold Sim.calcDerivedValues findIndices mapResistances
  rw [h1, h2, h3]
  exact ⟨_, rfl⟩

theorem sizing_of (s : Sim n k) (p : Plant n) {j : Fin k} {c : CondCfg} {a u : ℚ}
    (hj : s.cfg.compressorIndex = some j) (hc : (s.cfg.src j).kind = .condenser c) (hs : s.socControl = none)
    (e1 : Sim.aquaLoop p (s.cfg.src j).turnOn 1 = .ok a) (e2 : Sim.useLoop p (s.cfg.src j).shutOff 1 = .ok u) :
    s.getSizingFractions = .ok (a, if |a - (1 - u)| < tolMin then 1 - a + tolMin else u) := by
  rw [← aquaLoop_congr p s.toPlant] at e1
  rw [← useLoop_congr p s.toPlant] at e2
  unfold Sim.getSizingFractions Sim.compressor
  simp only [hj, hc, hs, bind, Except.bind, e1, e2, ne_eq, not_true_eq_false, if_false, pure, Except.pure]

/-- The conditions for acceptance, before the derived values are computed. -/
theorem finish_total (m : Libm) (pow : ℚ → ℚ → ℚ) (hp : PowPos pow) (s : Sim n k)
    (hV : 0 < s.tank.volume_L) (hk0 : 0 < k ∨ s.cfg.isStorageTank = true) (hs : ∀ i, AcceptableSource s.cfg.src i)
    (hsp : SetpointAllowed s s.setpoint) (hUA : 0 ≤ s.tank.UA) (hex : s.tank.heatExchangerEffectiveness ≤ 1)
    (hsoc : s.socControl = none)
    (hord : ∀ j c, MainHeatPump s.cfg.src j c → ∃ a u, Sim.aquaLoop s.toPlant (s.cfg.src j).turnOn 1 = .ok a ∧
      Sim.useLoop s.toPlant (s.cfg.src j).shutOff 1 = .ok u ∧
      1 - (if |a - (1 - u)| < tolMin then 1 - a + tolMin else u) ≤ a) :
    ∃ s', s.finish m pow = .ok s' := by
  have hv : ∀ i, (s.cfg.src i).heatDist.isValid = true := fun i => (isValid_spec _).mpr (hs i).heat
  obtain ⟨s1, h1⟩ := calcDerived_total m pow hp s hv hV
  have hk := C59_known m pow s s1 hv h1
  have h2 : s1.checkInputs = .ok () := by
    rw [C61_accepts_iff s1 hk]
    obtain ⟨ix, t, mp, -, ht, -, rfl⟩ := calcDerived_ok h1
    obtain ⟨t', ht', -, hsb⟩ := C41_sizes pow hp s.tank hV
    cases ht.symm.trans ht'
    refine ⟨hk0, fun i => ?_, hsp, ?_, ?_, fun j c hj => ?_⟩
    · have := hs i
      exact ⟨this.starts, this.turnOn, this.shutOff, this.heat, this.airflow, this.defrost, this.external,
        this.pump⟩
    · show 0 ≤ t.UA
      rw [hsb]; exact hUA
    · show t.heatExchangerEffectiveness ≤ 1
      rw [hsb]; exact hex
    · obtain ⟨a, u, e1, e2, e3⟩ := hord j c hj
      have ej := (hk.heatPump j).mpr ⟨c, hj⟩
      exact ⟨_, sizing_of _ s.toPlant ej hj.1 hsoc e1 e2, e3⟩
  exact ⟨_, by unfold Sim.finish; rw [h1]; simp only [bind, Except.bind, h2]; rfl⟩

/-- With the tank at the setpoint, the end of an initialiser is that of `configure`. -/
theorem finish_configure (m : Libm) (pow : ℚ → ℚ → ℚ) (s : Sim n k) (hT : ∀ j, s.tank.nodeTs j = s.setpoint)
    (s' : Sim n k) (h : s.finish m pow = .ok s') : s.configure m pow = .ok s' := by
  unfold Sim.finish at h
  obtain ⟨s1, h1, h⟩ := (bind_ok_iff _ _ _).mp h
  obtain ⟨_, h2, h⟩ := (bind_ok_iff _ _ _).mp h
  cases h
  unfold Sim.configure
  rw [h1]
  simp only [bind, Except.bind, h2, pure, Except.pure, Except.ok.injEq]
  obtain ⟨ix, t, mp, -, ht, -, rfl⟩ := calcDerived_ok h1
  have hn : t.nodeTs = s.tank.nodeTs := by
    unfold Tank.calcSizeConstants at ht
    simp only at ht
    split at ht
    · cases ht
    · cases ht; rfl
  have : t = { t with nodeTs := fun _ => s.setpoint } := by
    rw [← funext hT, ← hn]
  unfold Sim.resetTankToSetpoint
  simp only
  rw [← this]

/-! ## The tank -/

theorem withTank_pos (pow : ℚ → ℚ → ℚ) (s : Sim n k) {vol UA : ℚ} {s' : Sim n k}
    (h : s.withTank pow vol UA = .ok s') : 0 < vol := by
  unfold Sim.withTank Sim.setTankSize at h
  obtain ⟨s2, h2, -⟩ := (bind_ok_iff _ _ _).mp h
  obtain ⟨v, hv, h2⟩ := (bind_ok_iff _ _ _).mp h2
  obtain ⟨t, ht, -⟩ := (bind_ok_iff _ _ _).mp h2
  cases hv
  unfold Tank.setVolume at ht
  by_contra hn
  simp [not_lt.mp hn] at ht

theorem withTank_ok (pow : ℚ → ℚ → ℚ) (hp : PowPos pow) (s : Sim n k) {vol : ℚ} (hV : 0 < vol) (UA : ℚ) :
    ∃ t : Tank n, SameButSizes { s.tank with volumeFixed := false, volume_L := vol } t ∧
      s.withTank pow vol UA = .ok { s with
        setpoint := F_TO_C 127
        tank := { t with nodeTs := fun _ => F_TO_C 127, mixesOnDraw := true, UA := UA } } := by
  obtain ⟨t1, h1, -, e1⟩ := C41_sizes pow hp { s.tank with volumeFixed := false, volume_L := vol } hV
  obtain ⟨t2, h2, -, e2⟩ := C41_sizes pow hp t1 (by rw [e1]; exact hV)
  refine ⟨t2, ?_, ?_⟩
  · unfold SameButSizes at e1 e2 ⊢
    rw [e1] at e2
    exact e2
  · have hset : Tank.setVolume pow { s.tank with volumeFixed := false } vol false = .ok t1 := by
      unfold Tank.setVolume
      simpa [not_le.mpr hV] using h1
    unfold Sim.withTank Sim.setTankSize
    simp only [bind, Except.bind, volumeToL, hset, h2]
    rfl

/-! ## The elements -/

/-- A resistance element as the initialisers build it. -/
structure GoodElement (e : SourceCfg 11 k) : Prop where
  power : ∃ w, 0 < w ∧ e.kind = .resistance w
  dist : e.heatDist = twelfth 0 ∨ e.heatDist = twelfth 8
  starts : e.turnOn ≠ []
  turnOn : ∀ l ∈ e.turnOn, l.isValid = true
  shutOff : e.shutOff = []
  airflow : e.airflowFreedom = 1

theorem twelfth_shape (d : WDist) (h : d = twelfth 0 ∨ d = twelfth 8) :
    d.isValid = true ∧ (∀ p ∈ d, 0 ≤ p.weight) ∧ SpreadOut d 12 := by
  have key : ∀ d ∈ [twelfth 0, twelfth 8], d.isValid = true ∧ (∀ p ∈ d, 0 ≤ p.weight) ∧
      ∀ x : Fin 12, ∃ w, d.normalizedWeight ((x : ℚ) / 12) (((x : ℚ) + 1) / 12) = .ok w ∧ w * 12 ≤ 12 := by
    decide +kernel
  obtain ⟨h1, h2, h3⟩ := key d (by simpa using h)
  refine ⟨h1, h2, fun x w hw => ?_⟩
  obtain ⟨w', e, hle⟩ := h3 x
  have : (Except.ok w : Res ℚ) = .ok w' := by rw [← e, ← hw]; norm_num
  cases this
  push_cast
  exact hle

theorem goodElement_acceptable {src : Fin k → SourceCfg 11 k} (hg : ∀ i, GoodElement (src i)) (i : Fin k) :
    AcceptableSource src i := by
  obtain ⟨w, hw, hk⟩ := (hg i).power
  have no : ∀ c, ¬ IsHeatPump (src i) c := fun c hc => by rw [IsHeatPump, hk] at hc; cases hc
  refine ⟨.inl (hg i).starts, fun l hl => ?_, ?_, ?_, ?_, fun c hc => absurd hc (no c),
    fun c hc => absurd hc (no c), fun c hc => absurd hc (no c)⟩
  · exact (validLogic_iff l).mp ((hg i).turnOn l hl)
  · rw [(hg i).shutOff]; simp
  · exact (isValid_spec _).mp (twelfth_shape _ (hg i).dist).1
  · rw [(hg i).airflow]; norm_num

/-- The simulator just before the derived values are computed. -/
def filled {k : ℕ} (base : Sim n₀ k₀) (src : Fin k → SourceCfg 11 k) (canScale : Bool) (t : Tank 11) (UA : ℚ) :
    Sim 11 k :=
  { base.fresh src with
    cfg := { (base.fresh src).cfg with canScale := canScale }
    setpoint := F_TO_C 127
    tank := { t with nodeTs := fun _ => F_TO_C 127, mixesOnDraw := true, UA := UA } }

theorem filled_meaningful (base : Sim n₀ k₀) {src : Fin k → SourceCfg 11 k} (hg : ∀ i, GoodElement (src i))
    (b : Bool) (t : Tank 11) (vol UA : ℚ) (hV : 0 < vol)
    (ht : SameButSizes { (base.fresh src).tank with volumeFixed := false, volume_L := vol } t) :
    Meaningful (filled base src b t UA) := by
  have no : ∀ i c, ¬ IsHeatPump (src i) c := fun i c hc => by
    obtain ⟨w, -, hk⟩ := (hg i).power
    rw [IsHeatPump, hk] at hc; cases hc
  have shape := fun i => twelfth_shape _ (hg i).dist
  refine
    { nodes := by norm_num
      volume := ?_
      inlet := ?_
      inlet2 := ?_
      mixBelow := ?_
      mixing := ?_
      exchanger := ?_
      step := by show (0 : ℚ) ≤ 1; norm_num
      absolute := by show _ < F_TO_C 127; norm_num [F_TO_C, offsetF, FperC]
      weights := fun i => (shape i).2.1
      spread := fun i => (shape i).2.2
      power := fun i w hw => ?_
      ports := fun i c hc => absurd hc (no i c)
      flow := fun i c hc => absurd hc (no i c)
      limits := fun i c hc => absurd hc (no i c)
      output := fun i c hc => absurd hc (no i c) }
  · show 0 < t.volume_L
    rw [ht]; exact hV
  · show t.inletHeight ≤ 11
    rw [ht]; exact Nat.zero_le _
  · show t.inlet2Height ≤ 11
    rw [ht]; exact Nat.zero_le _
  · show t.mixBelowFractionOnDraw ≤ 1
    rw [ht]; show (1 / 3 : ℚ) ≤ 1; norm_num
  · show t.doInversionMixing = true
    rw [ht]; rfl
  · show 0 ≤ t.heatExchangerEffectiveness
    rw [ht]; show (0 : ℚ) ≤ 9 / 10; norm_num
  · obtain ⟨w', hw', hk⟩ := (hg i).power
    cases hk.symm.trans hw
    exact hw'

/-- Exactly the positive volumes give a heater. -/
theorem elementTank_total (m : Libm) (pow : ℚ → ℚ → ℚ) (hp : PowPos pow) (base : Sim n₀ k₀)
    {src : Fin k → SourceCfg 11 k} (hk : 0 < k) (hg : ∀ i, GoodElement (src i)) (b : Bool) (vol UA : ℚ)
    (hUA : 0 ≤ UA) : (∃ s, elementTank m pow base src b vol UA = .ok s) ↔ 0 < vol := by
  constructor
  · rintro ⟨s, h⟩
    obtain ⟨s1, h1, -⟩ := (bind_ok_iff _ _ _).mp h
    exact withTank_pos pow _ h1
  · intro hV
    obtain ⟨t, ht, e⟩ := withTank_ok pow hp
      { base.fresh src with cfg := { (base.fresh src).cfg with canScale := b } } hV UA
    unfold elementTank
    simp only [e, bind, Except.bind]
    refine finish_total m pow hp (filled base src b t UA) ?_ (.inl hk) (goodElement_acceptable hg) ?_ hUA ?_ rfl ?_
    · show 0 < t.volume_L
      rw [ht]; exact hV
    · unfold SetpointAllowed
      rw [if_neg (by simp [filled, Sim.fresh])]
      obtain ⟨w, -, hk0⟩ := (hg ⟨0, hk⟩).power
      refine ⟨fun _ => ?_, fun hn => absurd ⟨⟨0, hk⟩, w, hk0⟩ hn, fun h => absurd h hk.ne'⟩
      show F_TO_C 127 ≤ _
      norm_num [F_TO_C, offsetF, FperC]
    · show t.heatExchangerEffectiveness ≤ 1
      rw [ht]; show (9 / 10 : ℚ) ≤ 1; norm_num
    · intro j c hj
      obtain ⟨w, -, hk0⟩ := (hg j).power
      have := hj.1
      change (src j).kind = _ at this
      rw [hk0] at this
      cases this

/-- What the rest of the initialisation gives. -/
theorem elementTank_ok (m : Libm) (pow : ℚ → ℚ → ℚ) (hp : PowPos pow) (base : Sim n₀ k₀)
    {src : Fin k → SourceCfg 11 k} (b : Bool) (vol UA : ℚ) (s : Sim 11 k)
    (h : elementTank m pow base src b vol UA = .ok s) :
    0 < vol ∧ ∃ t, SameButSizes { (base.fresh src).tank with volumeFixed := false, volume_L := vol } t ∧
      (filled base src b t UA).configure m pow = .ok s := by
  unfold elementTank at h
  obtain ⟨s1, h1, h2⟩ := (bind_ok_iff _ _ _).mp h
  have hV := withTank_pos pow _ h1
  obtain ⟨t, ht, e⟩ := withTank_ok pow hp
    { base.fresh src with cfg := { (base.fresh src).cfg with canScale := b } } hV UA
  cases h1.symm.trans e
  exact ⟨hV, t, ht, finish_configure m pow (filled base src b t UA) (fun _ => rfl) s h2⟩

theorem configure_cfg {m : Libm} {pow : ℚ → ℚ → ℚ} (hp : PowPos pow) {s s' : Sim n k} (hV : 0 < s.tank.volume_L)
    (h : s.configure m pow = .ok s') :
    SameButSizes { s.tank with nodeTs := fun _ => s.setpoint } s'.tank ∧
    (∀ i, s'.cfg.src i = { s.cfg.src i with
      shrinkageT := (s'.cfg.src i).shrinkageT
      lowestNode := (s'.cfg.src i).lowestNode
      depressesTemperature := (s'.cfg.src i).depressesTemperature }) ∧
    s'.cfg = { s.cfg with
      src := s'.cfg.src
      compressorIndex := s'.cfg.compressorIndex
      lowestElementIndex := s'.cfg.lowestElementIndex
      vipIndex := s'.cfg.vipIndex
      heightMap := s'.cfg.heightMap } ∧
    s'.haveInletT = s.haveInletT ∧ s'.socControl = s.socControl := by
  obtain ⟨s1, h1, h2, rfl⟩ := configure_ok h
  obtain ⟨ix, t, mp, -, ht, -, rfl⟩ := calcDerived_ok h1
  obtain ⟨t', ht', -, hsb⟩ := C41_sizes pow hp s.tank hV
  cases ht.symm.trans ht'
  refine ⟨?_, fun i => rfl, rfl, rfl, rfl⟩
  unfold SameButSizes at hsb ⊢
  unfold Sim.resetTankToSetpoint
  simp only
  rw [hsb]

/-- What a heater with resistance elements only is like once it is initialised. -/
theorem elementTank_delivered (m : Libm) (hl : LogLike m.log) (pow : ℚ → ℚ → ℚ) (hp : PowPos pow)
    (hp1 : ∀ x y, 0 ≤ x → x ≤ 1 → 0 ≤ pow x y ∧ pow x y ≤ 1) (base : Sim n₀ k₀)
    {src : Fin k → SourceCfg 11 k} (hg : ∀ i, GoodElement (src i)) (b : Bool) (vol UA : ℚ) (s : Sim 11 k)
    (h : elementTank m pow base src b vol UA = .ok s) :
    Delivered s vol UA ∧ s.AlwaysAccountable ∧
    (∀ i, s.cfg.src i = { src i with
      shrinkageT := (s.cfg.src i).shrinkageT
      lowestNode := (s.cfg.src i).lowestNode
      depressesTemperature := (s.cfg.src i).depressesTemperature }) ∧ s.cfg.canScale = b ∧
    Derived s := by
  obtain ⟨hV, t, ht, hc⟩ := elementTank_ok m pow hp base b vol UA s h
  have hm := filled_meaningful base hg b t vol UA hV ht
  obtain ⟨-, -, hT, hh, hsp, hst⟩ := C61_configured m pow _ s hc
  obtain ⟨htank, hsrc, hcfg, hi, hso⟩ := configure_cfg hp hm.volume hc
  have off : ∀ i, s.st i = .blank := fun i => by rw [hst]; rfl
  have hder : Derived s := by
    obtain ⟨s1, h1, h2, rfl⟩ := configure_ok hc
    have hpr : ∀ i, ((filled base src b t UA).cfg.src i).heatDist.Proper := fun i =>
      ⟨(twelfth_shape _ (hg i).dist).1, (twelfth_shape _ (hg i).dist).2.1⟩
    have := (C59_derived m pow _ s1 hpr h1).1
    exact ⟨⟨this.heatPump, this.element⟩, this.lowest, this.priority, this.cools⟩
  refine ⟨⟨?_, ?_, ?_, fun j => hT j, fun i => by rw [off]; rfl, fun i => by rw [off]; rfl, ?_, ?_, hi, hso, ?_⟩,
    C61_accountable m hl pow hp hp1 _ s hm hc, hsrc, ?_, hder⟩
  · rw [htank]
    show t.volume_L = vol
    rw [ht]
  · rw [htank]; rfl
  · rw [hsp]
    show F_TO_C 127 = _
    norm_num [F_TO_C, offsetF, FperC]
  · have : ¬ ∃ i, (s.st i).isOn = true := by
      rintro ⟨i, hi⟩
      rw [off] at hi
      cases hi
    simpa [this] using hh
  · rw [hcfg]; rfl
  · rw [hcfg]; rfl
  · rw [hcfg]; rfl

/-! ## The tanks with an energy factor -/

theorem bothElements_good {up low : ℚ} (hu : 0 < up) (hl : 0 < low) (i : Fin 2) :
    GoodElement (bothElements up low i) := by
  have a : ∀ l ∈ [Logics.topThird (dF_TO_dC 20)], l.isValid = true := by decide +kernel
  have b : ∀ l ∈ [Logics.bottomThird (dF_TO_dC 40), Logics.topNode (dF_TO_dC 10)], l.isValid = true := by
    decide +kernel
  refine Fin.cases ?_ (fun i => ?_) i
  · exact ⟨⟨up / 1000, by positivity, rfl⟩, .inr rfl, by simp [bothElements, topElement], a, rfl, rfl⟩
  · rw [Fin.fin_one_eq_zero i]
    exact ⟨⟨low / 1000, by positivity, rfl⟩, .inl rfl, by simp [bothElements, bottomElement], b, rfl, rfl⟩

theorem bottomElement_good {low : ℚ} (hl : 0 < low) (i : Fin 1) :
    GoodElement ((![bottomElement low] : Fin 1 → SourceCfg 11 1) i) := by
  have b : ∀ l ∈ [Logics.bottomThird (dF_TO_dC 40), Logics.topNode (dF_TO_dC 10)], l.isValid = true := by
    decide +kernel
  rw [Fin.fin_one_eq_zero i]
  exact ⟨⟨low / 1000, by positivity, rfl⟩, .inl rfl, by simp [bottomElement], b, rfl, rfl⟩

theorem topElement_good {up : ℚ} (hu : 0 < up) (i : Fin 1) :
    GoodElement ((![topElement up] : Fin 1 → SourceCfg 11 1) i) := by
  have a : ∀ l ∈ [Logics.topThird (dF_TO_dC 20)], l.isValid = true := by decide +kernel
  rw [Fin.fin_one_eq_zero i]
  exact ⟨⟨up / 1000, by positivity, rfl⟩, .inr rfl, by simp [topElement], a, rfl, rfl⟩

theorem lossFromEF_nonneg (EF low : ℚ) : 0 ≤ lossFromEF EF low := by
  unfold lossFromEF
  simp only
  split_ifs with h
  · exact le_rfl
  · exact not_lt.mp h

theorem lossFromR_nonneg (pow : ℚ → ℚ → ℚ) (vol R : ℚ) : 0 ≤ lossFromR pow vol R := by
  unfold lossFromR
  simp only
  split_ifs with h
  · exact le_rfl
  · exact not_lt.mp h

theorem packed_ok {r : Res (Sim 11 k)} {k' : ℕ} {s : Sim 11 k'} (h : packed r = .ok ⟨k', s⟩) :
    ∃ e : k = k', r = .ok (e ▸ s) := by
  unfold packed at h
  cases r with
  | error e => cases h
  | ok x =>
    simp only [Except.map, Except.ok.injEq, Sigma.mk.injEq] at h
    obtain ⟨rfl, h⟩ := h
    exact ⟨rfl, by rw [eq_of_heq h]⟩

theorem packed_isOk {r : Res (Sim 11 k)} : (∃ x, packed r = .ok x) ↔ ∃ s, r = .ok s := by
  unfold packed
  cases r with
  | error e => simp [Except.map]
  | ok x => simp [Except.map]

/-- **C81.** A resistance tank can be built from exactly these numbers: a positive volume and energy factor, a lower
element of at least 550 W and an upper element of any power, or none (0 W). -/
theorem C81_accepted_iff (m : Libm) (pow : ℚ → ℚ → ℚ) (hp : PowPos pow) (base : Sim n₀ k₀) (vol EF up low : ℚ) :
    (∃ r, initResistanceTank m pow base vol EF up low = .ok r) ↔ 0 < vol ∧ 0 < EF ∧ 0 ≤ up ∧ 550 ≤ low := by
  unfold initResistanceTank
  by_cases h1 : low < 550
  · simp [h1, not_le.mpr h1]
  by_cases h2 : up < 0
  · simp [h1, h2, not_le.mpr h2]
  by_cases h3 : EF ≤ 0
  · simp [h1, h2, h3, not_lt.mpr h3]
  simp only [h1, h2, h3, if_false, not_le.mp h3, not_lt.mp h1, not_lt.mp h2, and_true]
  have hl : 0 < low := by linarith [not_lt.mp h1]
  split_ifs with h4
  · rw [packed_isOk]
    exact elementTank_total m pow hp base (by norm_num) (bothElements_good h4 hl) false vol _ (lossFromEF_nonneg EF low)
  · rw [packed_isOk]
    exact elementTank_total m pow hp base (by norm_num) (bottomElement_good hl) false vol _ (lossFromEF_nonneg EF low)

theorem elementAt {s : Sim 11 k} {src : Fin k → SourceCfg 11 k}
    (hs : ∀ i, s.cfg.src i = { src i with
      shrinkageT := (s.cfg.src i).shrinkageT
      lowestNode := (s.cfg.src i).lowestNode
      depressesTemperature := (s.cfg.src i).depressesTemperature })
    (i : Fin k) (w : ℚ) (hk : (src i).kind = .resistance (w / 1000)) :
    ((src i).heatDist = twelfth 0 → ElementAt s i 0 w) ∧ ((src i).heatDist = twelfth 8 → ElementAt s i 8 w) := by
  have key : ∀ j ∈ [(0 : Fin 12), 8], ∃ d, (twelfth j).calcHeatDist 12 = .ok d ∧
      ∀ i, d i = if i = j then 1 else 0 := by decide +kernel
  have at' : ∀ j ∈ [(0 : Fin 12), 8], (src i).heatDist = twelfth j → ElementAt s i j w := by
    intro j hj e
    obtain ⟨d, hd, hd'⟩ := key j hj
    refine ⟨by rw [hs]; exact hk, ?_⟩
    rw [hs]
    show (src i).heatDist.calcHeatDist 12 = _
    rw [e, hd, ← funext hd']
  exact ⟨at' 0 (by simp), at' 8 (by simp)⟩

/-- The heat loss coefficient is the one of the rating procedure for energy factors up to the recovery efficiency;
above it no heat is lost. -/
theorem lossFromEF_spec {EF low : ℚ} (hE : 0 < EF) (hl : 550 ≤ low) :
    (EF ≤ 98 / 100 → RatedAt EF (lossFromEF EF low) low) ∧ (98 / 100 ≤ EF → lossFromEF EF low = 0) := by
  have hden : 0 < (135 / 2 : ℚ) * (24 / 41094 - 1 / (98 / 100 * low * (341443 / 100000))) := by
    have h1 : 1 / (98 / 100 * low * (341443 / 100000)) ≤ 1 / (98 / 100 * 550 * (341443 / 100000) : ℚ) := by
      apply one_div_le_one_div_of_le (by norm_num)
      linarith
    norm_num at h1 ⊢
    linarith
  have hnum : EF ≤ 98 / 100 ↔ 0 ≤ 1 / EF - 1 / (98 / 100 : ℚ) := by
    rw [sub_nonneg, one_div_le_one_div (by norm_num) hE]
  constructor
  · intro h
    have h0 := div_nonneg (hnum.mp h) hden.le
    have e : lossFromEF EF low = UAf_TO_UAc ((1 / EF - 1 / (98 / 100)) /
        (135 / 2 * (24 / 41094 - 1 / (98 / 100 * low * (341443 / 100000))))) := by
      unfold lossFromEF
      simp only
      rw [if_neg]
      unfold UAf_TO_UAc
      rw [not_lt]
      positivity
    unfold RatedAt
    rw [e]
    unfold UAf_TO_UAc
    have ha : (98 / 100 * (low * (341443 / 100000)) : ℚ) = 98 / 100 * low * (341443 / 100000) := by ring
    rw [ha]
    generalize (24 / 41094 - 1 / (98 / 100 * low * (341443 / 100000)) : ℚ) = x at hden ⊢
    have hx : x ≠ 0 := by rintro rfl; simp at hden
    field_simp
    ring
  · intro h
    have h0 : (1 / EF - 1 / (98 / 100)) /
        (135 / 2 * (24 / 41094 - 1 / (98 / 100 * low * (341443 / 100000)))) ≤ 0 := by
      apply div_nonpos_of_nonpos_of_nonneg _ hden.le
      rw [sub_nonpos, one_div_le_one_div hE (by norm_num)]
      exact h
    unfold lossFromEF UAf_TO_UAc
    simp only
    split_ifs with h1
    · rfl
    · rw [not_lt] at h1
      refine le_antisymm ?_ h1
      apply div_nonpos_of_nonpos_of_nonneg _ (by norm_num)
      apply mul_nonpos_of_nonpos_of_nonneg h0 (by norm_num)

/-- **C81.** With an upper element: what is built from the four numbers. The upper element has priority and hands over to
the lower one. -/
theorem C81_two_elements (m : Libm) (hl : LogLike m.log) (pow : ℚ → ℚ → ℚ) (hp : PowPos pow)
    (hp1 : ∀ x y, 0 ≤ x → x ≤ 1 → 0 ≤ pow x y ∧ pow x y ≤ 1) (base : Sim n₀ k₀) (vol EF up low : ℚ) (hu : 0 < up)
    {k : ℕ} (s : Sim 11 k) (h : initResistanceTank m pow base vol EF up low = .ok ⟨k, s⟩) :
    (∃ UA, Delivered s vol UA ∧ 0 ≤ UA ∧ (EF ≤ 98 / 100 → RatedAt EF UA low) ∧ (98 / 100 ≤ EF → UA = 0)) ∧
    s.AlwaysAccountable ∧ k = 2 ∧ ∃ top bottom : Fin k, top < bottom ∧
      ElementAt s top 8 up ∧ ElementAt s bottom 0 low ∧
      s.cfg.vipIndex = some top ∧ s.cfg.lowestElementIndex = some bottom ∧
      (s.cfg.src top).followedBy = some bottom ∧ (s.cfg.src bottom).followedBy = none ∧
      ∀ i, (s.cfg.src i).backup = none ∧ (s.cfg.src i).companion = none := by
  have hlow : 550 ≤ low := ((C81_accepted_iff m pow hp base vol EF up low).mp ⟨_, h⟩).2.2.2
  have hE : 0 < EF := ((C81_accepted_iff m pow hp base vol EF up low).mp ⟨_, h⟩).2.1
  unfold initResistanceTank at h
  rw [if_neg (not_lt.mpr hlow), if_neg (not_lt.mpr hu.le), if_neg (not_le.mpr hE), if_pos hu] at h
  obtain ⟨rfl, h⟩ := packed_ok h
  have hg := bothElements_good hu (by linarith : 0 < low)
  obtain ⟨h1, h2, h3, -, h4⟩ := elementTank_delivered m hl pow hp hp1 base hg false vol _ s h
  have e0 : ElementAt s 0 8 up := (elementAt h3 0 up rfl).2 rfl
  have e1 : ElementAt s 1 0 low := (elementAt h3 1 low rfl).1 rfl
  have d0 : (s.cfg.src 0).heatDist = twelfth 8 := by rw [h3]; rfl
  have d1 : (s.cfg.src 1).heatDist = twelfth 0 := by rw [h3]; rfl
  have v0 : (s.cfg.src 0).isVIP = true := by rw [h3]; rfl
  have v1 : (s.cfg.src 1).isVIP = false := by rw [h3]; rfl
  refine ⟨⟨_, h1, lossFromEF_nonneg EF low, lossFromEF_spec hE hlow⟩, h2, rfl, 0, 1, by decide, e0, e1, ?_, ?_, ?_, ?_,
    fun i => ?_⟩
  · rw [h4.priority]
    exact ⟨⟨⟨_, e0.power⟩, v0⟩, fun j _ _ => Fin.zero_le j⟩
  · rw [h4.lowest]
    refine ⟨⟨_, e1.power⟩, fun j _ a b ha hb => ?_⟩
    have p0 : (twelfth 0).Proper := ⟨by decide +kernel, by decide +kernel⟩
    have p8 : (twelfth 8).Proper := ⟨by decide +kernel, by decide +kernel⟩
    have q0 : ∃ x, (twelfth 0).lowestNormalizedHeight = .ok x ∧ x = 0 := by decide +kernel
    have q8 : ∃ x, (twelfth 8).lowestNormalizedHeight = .ok x ∧ x = 2 / 3 := by decide +kernel
    obtain ⟨_, q0, rfl⟩ := q0
    obtain ⟨_, q8, rfl⟩ := q8
    rw [d1] at ha
    have ea := HeatsFrom.unique ha (WDist.lowestNormalizedHeight_heats p0 q0)
    refine Fin.cases (fun hb => ?_) (fun j hb => ?_) j hb
    · rw [d0] at hb
      have eb := HeatsFrom.unique hb (WDist.lowestNormalizedHeight_heats p8 q8)
      rw [ea, eb]; norm_num
    · rw [Fin.fin_one_eq_zero j] at hb ⊢
      change HeatsFrom (s.cfg.src 1).heatDist b at hb
      rw [d1] at hb
      have eb := HeatsFrom.unique hb (WDist.lowestNormalizedHeight_heats p0 q0)
      rw [ea, eb]
      exact ⟨le_rfl, fun h => absurd h (by decide)⟩
  · rw [h3]; rfl
  · rw [h3]; rfl
  · rw [h3]
    refine Fin.cases ?_ (fun i => ?_) i
    · exact ⟨rfl, rfl⟩
    · rw [Fin.fin_one_eq_zero i]; exact ⟨rfl, rfl⟩

/-- **C81.** Without an upper element there is only the lower one. -/
theorem C81_one_element (m : Libm) (hl : LogLike m.log) (pow : ℚ → ℚ → ℚ) (hp : PowPos pow)
    (hp1 : ∀ x y, 0 ≤ x → x ≤ 1 → 0 ≤ pow x y ∧ pow x y ≤ 1) (base : Sim n₀ k₀) (vol EF low : ℚ)
    {k : ℕ} (s : Sim 11 k) (h : initResistanceTank m pow base vol EF 0 low = .ok ⟨k, s⟩) :
    (∃ UA, Delivered s vol UA ∧ 0 ≤ UA ∧ (EF ≤ 98 / 100 → RatedAt EF UA low) ∧ (98 / 100 ≤ EF → UA = 0)) ∧
    s.AlwaysAccountable ∧ k = 1 ∧ s.cfg.vipIndex = none ∧ ∃ bottom : Fin k, ElementAt s bottom 0 low ∧
      s.cfg.lowestElementIndex = some bottom ∧
      (s.cfg.src bottom).followedBy = none ∧ (s.cfg.src bottom).backup = none ∧
      (s.cfg.src bottom).companion = none := by
  have hlow : 550 ≤ low := ((C81_accepted_iff m pow hp base vol EF 0 low).mp ⟨_, h⟩).2.2.2
  have hE : 0 < EF := ((C81_accepted_iff m pow hp base vol EF 0 low).mp ⟨_, h⟩).2.1
  unfold initResistanceTank at h
  rw [if_neg (not_lt.mpr hlow), if_neg (lt_irrefl _), if_neg (not_le.mpr hE), if_neg (lt_irrefl _)] at h
  obtain ⟨rfl, h⟩ := packed_ok h
  have hg := bottomElement_good (by linarith : 0 < low)
  obtain ⟨h1, h2, h3, -, h4⟩ := elementTank_delivered m hl pow hp hp1 base hg false vol _ s h
  have e1 : ElementAt s 0 0 low := (elementAt h3 0 low rfl).1 rfl
  have v1 : (s.cfg.src 0).isVIP = false := by rw [h3]; rfl
  refine ⟨⟨_, h1, lossFromEF_nonneg EF low, lossFromEF_spec hE hlow⟩, h2, rfl, ?_, 0, e1, ?_, ?_, ?_, ?_⟩
  · rw [Option.eq_none_iff_forall_ne_some]
    intro i hi
    have := ((h4.priority i).mp hi).1.2
    rw [Fin.fin_one_eq_zero i, v1] at this
    cases this
  · rw [h4.lowest]
    refine ⟨⟨_, e1.power⟩, fun j _ a b ha hb => ?_⟩
    rw [Fin.fin_one_eq_zero j] at hb ⊢
    rw [HeatsFrom.unique ha hb]
    exact ⟨le_rfl, fun h => absurd h (lt_irrefl _)⟩
  · rw [h3]; rfl
  · rw [h3]; rfl
  · rw [h3]; rfl

/-! ## When the elements start -/

theorem topThird_average (T : Nodes 11 ℚ) : profileAverage T (2 / 3) 1 = (T 8 + T 9 + T 10 + T 11) / 4 := by
  unfold profileAverage profileIntegral overlap
  simp only [Fin.sum_univ_succ, Fin.sum_univ_zero]
  norm_num
  ring_nf
  rfl

theorem bottomThird_average (T : Nodes 11 ℚ) : profileAverage T 0 (1 / 3) = (T 0 + T 1 + T 2 + T 3) / 4 := by
  unfold profileAverage profileIntegral overlap
  simp only [Fin.sum_univ_succ, Fin.sum_univ_zero]
  norm_num
  ring_nf
  rfl

theorem wantsHeat_plain {s : SourceCfg n k} {p : Plant n} {l : Logic} (hc : l.checkStandby = false) :
    s.wantsHeat p l = l.holds p := by
  unfold SourceCfg.wantsHeat Logic.holds
  cases l.tankValue p with
  | error e => rfl
  | ok v =>
    simp only [bind, Except.bind, hc, pure, Except.pure]
    cases l.cmp.test v (l.comparisonValue p) <;> rfl

/-- **C81.** The upper element asks for heat when the upper third is on average 20 °F below the setpoint, the
lower one when the lower third is 40 °F or the top node 10 °F below it; neither once the bottom of the tank
has reached the setpoint. -/
theorem C81_starts (up low : ℚ) (p : Plant 11) :
    (bothElements up low 0).shouldHeat p = .ok (decide
      ((p.tank.nodeTs 8 + p.tank.nodeTs 9 + p.tank.nodeTs 10 + p.tank.nodeTs 11) / 4 < p.setpoint - 20 * 5 / 9 ∧
        p.tank.nodeTs 0 < p.setpoint)) ∧
    (bothElements up low 1).shouldHeat p = .ok (decide
      (((p.tank.nodeTs 0 + p.tank.nodeTs 1 + p.tank.nodeTs 2 + p.tank.nodeTs 3) / 4 < p.setpoint - 40 * 5 / 9 ∨
          p.tank.nodeTs 11 < p.setpoint - 10 * 5 / 9) ∧ p.tank.nodeTs 0 < p.setpoint)) := by
  have lib := fun x => C62_library_logics x
  have e (x : ℚ) : dF_TO_dC x = x * 5 / 9 := by unfold dF_TO_dC FperC; ring
  have s0 : (bothElements up low 0).shutOff = [] := rfl
  have s1 : (bothElements up low 1).shutOff = [] := rfl
  have ht : (Logics.topThird (dF_TO_dC 20)).holds p = .ok (decide
      ((p.tank.nodeTs 8 + p.tank.nodeTs 9 + p.tank.nodeTs 10 + p.tank.nodeTs 11) / 4 < p.setpoint - 20 * 5 / 9)) := by
    have := (lib (dF_TO_dC 20)).2.2.2.2.1 p
    rw [this, if_pos rfl, topThird_average]
    dsimp only
    rw [e]
  have hb : (Logics.bottomThird (dF_TO_dC 40)).holds p = .ok (decide
      ((p.tank.nodeTs 0 + p.tank.nodeTs 1 + p.tank.nodeTs 2 + p.tank.nodeTs 3) / 4 < p.setpoint - 40 * 5 / 9)) := by
    have := (lib (dF_TO_dC 40)).2.2.2.2.2.2.2.2.2.2.1 p
    rw [this, if_pos rfl, bottomThird_average]
    dsimp only
    rw [e]
  have hn : (Logics.topNode (dF_TO_dC 10)).holds p = .ok (decide
      (p.tank.nodeTs 11 < p.setpoint - 10 * 5 / 9)) := by
    rw [(C62_node_logics (dF_TO_dC 10) true p).2.1, e]
    rfl
  constructor
  · unfold SourceCfg.shouldHeat
    show (do let b ← SourceCfg.shouldHeatLoop _ p [Logics.topThird (dF_TO_dC 20)]; _) = _
    unfold SourceCfg.shouldHeatLoop SourceCfg.shouldHeatLoop SourceCfg.shutsOff
    rw [wantsHeat_plain rfl, ht, s0]
    by_cases h1 : (p.tank.nodeTs 8 + p.tank.nodeTs 9 + p.tank.nodeTs 10 + p.tank.nodeTs 11) / 4 <
        p.setpoint - 20 * 5 / 9 <;> by_cases h2 : p.tank.nodeTs 0 < p.setpoint <;>
      simp [h1, h2, bind, Except.bind, pure, Except.pure, anyHolds, not_le.mpr, not_lt.mp]
  · unfold SourceCfg.shouldHeat
    show (do let b ← SourceCfg.shouldHeatLoop _ p
              [Logics.bottomThird (dF_TO_dC 40), Logics.topNode (dF_TO_dC 10)]; _) = _
    unfold SourceCfg.shouldHeatLoop SourceCfg.shouldHeatLoop SourceCfg.shouldHeatLoop SourceCfg.shutsOff
    rw [wantsHeat_plain rfl, wantsHeat_plain rfl, hb, hn, s1]
    by_cases h1 : (p.tank.nodeTs 0 + p.tank.nodeTs 1 + p.tank.nodeTs 2 + p.tank.nodeTs 3) / 4 <
        p.setpoint - 40 * 5 / 9 <;> by_cases h2 : p.tank.nodeTs 0 < p.setpoint <;>
      by_cases h3 : p.tank.nodeTs 11 < p.setpoint - 10 * 5 / 9 <;>
      simp [h1, h2, h3, bind, Except.bind, pure, Except.pure, anyHolds, not_le.mpr, not_lt.mp]

/-! ## The tanks with an R-value -/

/-- **C81.** The tanks given by an R-value need a positive volume and R-value and at least one element. -/
theorem C81_generic_accepted_iff (m : Libm) (pow : ℚ → ℚ → ℚ) (hp : PowPos pow) (base : Sim n₀ k₀)
    (vol R up low : ℚ) : (∃ r, initResistanceTankGeneric m pow base vol R up low = .ok r) ↔
      0 < vol ∧ 0 < R ∧ 0 ≤ up ∧ 0 ≤ low ∧ (0 < up ∨ 0 < low) := by
  unfold initResistanceTankGeneric
  by_cases h1 : low < 0
  · rw [if_pos h1]; simp [not_le.mpr h1]
  rw [if_neg h1]
  by_cases h2 : up < 0
  · rw [if_pos h2]; simp [not_le.mpr h2]
  rw [if_neg h2]
  by_cases h3 : R ≤ 0
  · rw [if_pos h3]; simp [not_lt.mpr h3]
  rw [if_neg h3]
  dsimp only
  have h1 := not_lt.mp h1
  have h2 := not_lt.mp h2
  have h3 := not_le.mp h3
  have hUA := lossFromR_nonneg pow vol R
  by_cases h4 : up > 0 <;> by_cases h5 : low > 0
  · rw [if_pos h4, if_pos h5, packed_isOk,
      elementTank_total m pow hp base (by norm_num) (bothElements_good h4 h5) _ _ _ hUA]
    simp [h1, h2, h3, h4]
  · rw [if_pos h4, if_neg h5, packed_isOk,
      elementTank_total m pow hp base (by norm_num) (topElement_good h4) _ _ _ hUA]
    simp [h1, h2, h3, h4]
  · rw [if_neg h4, if_pos h5, packed_isOk,
      elementTank_total m pow hp base (by norm_num) (bottomElement_good h5) _ _ _ hUA]
    simp [h1, h2, h3, h5]
  · rw [if_neg h4, if_neg h5, packed_isOk]
    have : ¬ ((0 < up) ∨ 0 < low) := by simp [not_lt.mp h4, not_lt.mp h5]
    simp only [this, and_false, iff_false]
    rintro ⟨s, h⟩
    obtain ⟨-, t, -, hc⟩ := elementTank_ok m pow hp base true vol _ s h
    obtain ⟨s1, h1, h2, -⟩ := configure_ok hc
    obtain ⟨ix, t', mp, -, -, -, rfl⟩ := calcDerived_ok h1
    unfold Sim.checkInputs at h2
    obtain ⟨b, -, h2⟩ := (bind_ok_iff _ _ _).mp h2
    simp [Sim.globalOk, filled, Sim.fresh] at h2

theorem lossFromR_spec {pow : ℚ → ℚ → ℚ} (hp : PowPos pow) {vol R : ℚ} (hV : 0 < vol) (hR : 0 < R) :
    lossFromR pow vol R * 1000 / 3600 * R = tankSurfaceArea pow vol := by
  have hs : 0 ≤ tankSurfaceArea pow vol := by
    exact (tankSurfaceArea_pos hp hV).le
  unfold lossFromR secPerHr secPerMin minPerHr
  simp only
  rw [if_neg (by rw [not_lt]; positivity)]
  field_simp
  norm_num

/-- **C81.** The tanks given by an R-value (m² K/W): the heat loss coefficient, in W/K, is surface area over R-value. -/
theorem C81_generic_delivered (m : Libm) (hl : LogLike m.log) (pow : ℚ → ℚ → ℚ) (hp : PowPos pow)
    (hp1 : ∀ x y, 0 ≤ x → x ≤ 1 → 0 ≤ pow x y ∧ pow x y ≤ 1) (base : Sim n₀ k₀) (vol R up low : ℚ)
    {k : ℕ} (s : Sim 11 k) (h : initResistanceTankGeneric m pow base vol R up low = .ok ⟨k, s⟩) :
    (∃ UA, Delivered s vol UA ∧ UA * 1000 / 3600 * R = tankSurfaceArea pow vol) ∧
    s.AlwaysAccountable ∧ s.cfg.canScale = true ∧
    (0 < up → ∃ top, ElementAt s top 8 up ∧ s.cfg.vipIndex = some top) ∧
    (0 < low → ∃ bottom, ElementAt s bottom 0 low) ∧
    k = (if 0 < up then 1 else 0) + (if 0 < low then 1 else 0) := by
  obtain ⟨hV, hR, hu, hlo, hor⟩ := (C81_generic_accepted_iff m pow hp base vol R up low).mp ⟨_, h⟩
  unfold initResistanceTankGeneric at h
  rw [if_neg (not_lt.mpr hlo), if_neg (not_lt.mpr hu), if_neg (not_le.mpr hR)] at h
  dsimp only at h
  by_cases h4 : up > 0 <;> by_cases h5 : low > 0
  · rw [if_pos h4, if_pos h5] at h
    obtain ⟨rfl, h⟩ := packed_ok h
    obtain ⟨h1, h2, h3, hs, hd⟩ := elementTank_delivered m hl pow hp hp1 base (bothElements_good h4 h5) true vol _ s h
    have e0 : ElementAt s 0 8 up := (elementAt h3 0 up rfl).2 rfl
    have v0 : (s.cfg.src 0).isVIP = true := by rw [h3]; rfl
    refine ⟨⟨_, h1, lossFromR_spec hp hV hR⟩, h2, hs, fun _ => ⟨0, e0, ?_⟩,
      fun _ => ⟨1, (elementAt h3 1 low rfl).1 rfl⟩, by simp [h4, h5]⟩
    rw [hd.priority]
    exact ⟨⟨⟨_, e0.power⟩, v0⟩, fun j _ _ => Fin.zero_le j⟩
  · rw [if_pos h4, if_neg h5] at h
    obtain ⟨rfl, h⟩ := packed_ok h
    obtain ⟨h1, h2, h3, hs, hd⟩ := elementTank_delivered m hl pow hp hp1 base (topElement_good h4) true vol _ s h
    have e0 : ElementAt s 0 8 up := (elementAt h3 0 up rfl).2 rfl
    have v0 : (s.cfg.src 0).isVIP = true := by rw [h3]; rfl
    refine ⟨⟨_, h1, lossFromR_spec hp hV hR⟩, h2, hs, fun _ => ⟨0, e0, ?_⟩, fun h => absurd h h5, by simp [h4, h5]⟩
    rw [hd.priority]
    exact ⟨⟨⟨_, e0.power⟩, v0⟩, fun j _ _ => Fin.zero_le j⟩
  · rw [if_neg h4, if_pos h5] at h
    obtain ⟨rfl, h⟩ := packed_ok h
    obtain ⟨h1, h2, h3, hs, -⟩ := elementTank_delivered m hl pow hp hp1 base (bottomElement_good h5) true vol _ s h
    exact ⟨⟨_, h1, lossFromR_spec hp hV hR⟩, h2, hs, fun h => absurd h h4,
      fun _ => ⟨0, (elementAt h3 0 low rfl).1 rfl⟩, by simp [h4, h5]⟩
  · exact absurd hor (by simp [not_lt.mp h4, not_lt.mp h5])

/-! ## Runs -/

/-- **C81, C34.** Every run of a resistance tank built from accepted numbers balances, starting from a tank full of
water at 127 °F. -/
theorem C81_runs_balance (m : Libm) (hexp : ∀ x, 0 ≤ m.exp x) (hl : LogLike m.log) (pow : ℚ → ℚ → ℚ) (hp : PowPos pow)
    (hp1 : ∀ x y, 0 ≤ x → x ≤ 1 → 0 ≤ pow x y ∧ pow x y ≤ 1) (base : Sim n₀ k₀) (vol EF up low : ℚ)
    {k : ℕ} (s s' : Sim 11 k) (h : initResistanceTank m pow base vol EF up low = .ok ⟨k, s⟩) (fuel : ℕ)
    (us : List Sim.RunInput) (hd : ∀ u ∈ us, 0 ≤ u.draw_L) (hr : Sim.runNSteps m fuel s us = .ok s') :
    tankHeat vol s'.tank.nodeTs = tankHeat vol (fun _ : Fin 12 => (127 - 32) * 5 / 9) +
      3600 * ∑ i, (s'.st i).energyOutput_kWh +
      ∑ t : Fin us.length, waterHeat us[t].draw_L us[t].inletT -
      waterHeat (∑ t : Fin us.length, us[t].draw_L) s'.tank.outletT -
      3600 * s'.standbyLosses_kWh := by
  obtain ⟨-, -, hu, -⟩ := (C81_accepted_iff m pow hp base vol EF up low).mp ⟨_, h⟩
  have hD : (∃ UA, Delivered s vol UA) ∧ s.AlwaysAccountable := by
    rcases hu.lt_or_eq with hu | rfl
    · obtain ⟨⟨UA, h1, -⟩, h2, -⟩ := C81_two_elements m hl pow hp hp1 base vol EF up low hu s h
      exact ⟨⟨UA, h1⟩, h2⟩
    · obtain ⟨⟨UA, h1, -⟩, h2, -⟩ := C81_one_element m hl pow hp hp1 base vol EF low s h
      exact ⟨⟨UA, h1⟩, h2⟩
  obtain ⟨⟨UA, h1⟩, h2⟩ := hD
  have := C34_run_energy_balance m hexp fuel s s' us h2 hd hr
  rw [h1.volume, funext fun j => (h1.hot j).trans h1.setpoint] at this
  exact this

/-! ## Initialising again -/

/-- Two simulators that differ at most in the outputs of the last step do the same from now on. -/
theorem runOneStep_resetOutputs (m : Libm) (fuel : ℕ) {s s' : Sim n k} (h : s.resetOutputs = s'.resetOutputs)
    (u : Sim.StepInput) : Sim.runOneStep m fuel s u = Sim.runOneStep m fuel s' u := by
  have hc : s.resetOutputs.cfg = s'.resetOutputs.cfg := congrArg Sim.cfg h
  change s.cfg = s'.cfg at hc
  unfold Sim.runOneStep
  rw [h, hc]

theorem withTank_forgets (pow : ℚ → ℚ → ℚ) (b₁ : Sim n₀ k₀) (b₂ : Sim n₁ k₁) (src : Fin k → SourceCfg 11 k) (c : Bool)
    (vol UA : ℚ) (hd : b₁.cfg.maxDepression = b₂.cfg.maxDepression) :
    ((({ b₁.fresh src with cfg := { (b₁.fresh src).cfg with canScale := c } } : Sim 11 k).withTank pow vol UA).map
      Sim.resetOutputs) =
    ((({ b₂.fresh src with cfg := { (b₂.fresh src).cfg with canScale := c } } : Sim 11 k).withTank pow vol UA).map
      Sim.resetOutputs) := by
  unfold Sim.withTank Sim.setTankSize Tank.setVolume
  simp only [bind, Except.bind, volumeToL]
  by_cases hv : vol ≤ 0
  · simp [hv, Except.map]
  · unfold Tank.calcSizeConstants
    simp only [hv, Bool.false_eq_true, false_and, if_false]
    by_cases hz : aspectRatio * tankRadius pow vol + tankRadius pow vol = 0
    · simp only [hz, if_true]
    · simp only [hz, if_false]
      unfold Sim.resetTankToSetpoint Sim.resetOutputs Sim.fresh
      simp only [pure, Except.pure, Except.map, hd]
      rfl

theorem finish_resetOutputs (m : Libm) (pow : ℚ → ℚ → ℚ) (s : Sim n k) :
    s.resetOutputs.finish m pow = (s.finish m pow).map Sim.resetOutputs := by
  have hd : s.resetOutputs.calcDerivedValues m pow = (s.calcDerivedValues m pow).map Sim.resetOutputs := by
    unfold Sim.calcDerivedValues
    show (do let ix ← findIndices s.cfg.src; _) = _
    cases h1 : findIndices s.cfg.src with
    | error e => rfl
    | ok ix =>
      unfold Tank.calcSizeConstants
      by_cases hz : aspectRatio * tankRadius pow s.tank.volume_L + tankRadius pow s.tank.volume_L = 0
      · have hz' : aspectRatio * tankRadius pow s.resetOutputs.tank.volume_L +
            tankRadius pow s.resetOutputs.tank.volume_L = 0 := hz
        simp only [hz, hz', if_true]; rfl
      · have hz' : ¬ aspectRatio * tankRadius pow s.resetOutputs.tank.volume_L +
            tankRadius pow s.resetOutputs.tank.volume_L = 0 := hz
        have hm : mapResistances s.resetOutputs.cfg.src = mapResistances s.cfg.src := rfl
        simp only [hz, hz', if_false, hm, bind, Except.bind]
        cases mapResistances s.cfg.src <;> rfl
  unfold Sim.finish
  rw [hd]
  cases s.calcDerivedValues m pow with
  | error e => rfl
  | ok s1 =>
    have hg : s1.resetOutputs.getSizingFractions = s1.getSizingFractions := sizing_congr rfl rfl
    have hz : s1.resetOutputs.sizingOk = s1.sizingOk := by
      unfold Sim.sizingOk
      rw [hg]
      rfl
    have hc : s1.resetOutputs.checkInputs = s1.checkInputs := by
      unfold Sim.checkInputs
      rw [hz]
      rfl
    simp only [Except.map, bind, Except.bind, hc]
    cases s1.checkInputs <;> rfl

theorem elementTank_forgets (m : Libm) (pow : ℚ → ℚ → ℚ) (b₁ : Sim n₀ k₀) (b₂ : Sim n₁ k₁)
    (src : Fin k → SourceCfg 11 k) (c : Bool) (vol UA : ℚ) (hd : b₁.cfg.maxDepression = b₂.cfg.maxDepression) :
    (elementTank m pow b₁ src c vol UA).map Sim.resetOutputs = (elementTank m pow b₂ src c vol UA).map Sim.resetOutputs := by
  have h := withTank_forgets pow b₁ b₂ src c vol UA hd
  unfold elementTank
  simp only [bind, Except.bind]
  generalize Sim.withTank pow _ vol UA = r₁ at h ⊢
  generalize Sim.withTank pow _ vol UA = r₂ at h ⊢
  cases r₁ <;> cases r₂ <;> simp only [Except.map, Except.ok.injEq, reduceCtorEq, Except.error.injEq] at h
  · simp [h]
  · rw [← finish_resetOutputs, h, finish_resetOutputs]

/-- **C81.** Initialising a simulator again gives the same heater whatever it simulated before, as long as its limit on
the cooling of the room is the same: the same request is refused or accepted, and afterwards every step with the same
inputs gives the same. -/
theorem C81_forgets (m : Libm) (pow : ℚ → ℚ → ℚ) (b₁ : Sim n₀ k₀) (b₂ : Sim n₁ k₁)
    (hd : b₁.cfg.maxDepression = b₂.cfg.maxDepression) (vol EF up low : ℚ) :
    (∀ e, initResistanceTank m pow b₁ vol EF up low = .error e ↔ initResistanceTank m pow b₂ vol EF up low = .error e) ∧
    ∀ {k} (s₁ s₂ : Sim 11 k), initResistanceTank m pow b₁ vol EF up low = .ok ⟨k, s₁⟩ →
      initResistanceTank m pow b₂ vol EF up low = .ok ⟨k, s₂⟩ →
      s₁.cfg = s₂.cfg ∧ s₁.tank.nodeTs = s₂.tank.nodeTs ∧ s₁.setpoint = s₂.setpoint ∧
      ∀ m fuel u, Sim.runOneStep m fuel s₁ u = Sim.runOneStep m fuel s₂ u := by
  have ok : ∀ {k} (src : Fin k → SourceCfg 11 k) UA {k'} (s₁ s₂ : Sim 11 k'),
      packed (elementTank m pow b₁ src false vol UA) = .ok ⟨k', s₁⟩ →
      packed (elementTank m pow b₂ src false vol UA) = .ok ⟨k', s₂⟩ → s₁.resetOutputs = s₂.resetOutputs := by
    intro k src UA k' s₁ s₂ h1 h2
    obtain ⟨rfl, h1⟩ := packed_ok h1
    obtain ⟨_, h2⟩ := packed_ok h2
    have := elementTank_forgets m pow b₁ b₂ src false vol UA hd
    rw [h1, h2] at this
    exact Except.ok.inj this
  have er : ∀ {k} (src : Fin k → SourceCfg 11 k) UA e,
      packed (elementTank m pow b₁ src false vol UA) = .error e ↔
      packed (elementTank m pow b₂ src false vol UA) = .error e := by
    intro k src UA e
    have := elementTank_forgets m pow b₁ b₂ src false vol UA hd
    cases h1 : elementTank m pow b₁ src false vol UA <;> cases h2 : elementTank m pow b₂ src false vol UA <;>
      rw [h1, h2] at this <;> simp_all [packed, Except.map]
  constructor
  · intro e
    unfold initResistanceTank
    split_ifs
    · rfl
    · rfl
    · rfl
    · exact er _ _ e
    · exact er _ _ e
  · intro k s₁ s₂ h1 h2
    have h : s₁.resetOutputs = s₂.resetOutputs := by
      unfold initResistanceTank at h1 h2
      by_cases c1 : low < 550
      · rw [if_pos c1] at h1; cases h1
      rw [if_neg c1] at h1 h2
      by_cases c2 : up < 0
      · rw [if_pos c2] at h1; cases h1
      rw [if_neg c2] at h1 h2
      by_cases c3 : EF ≤ 0
      · rw [if_pos c3] at h1; cases h1
      rw [if_neg c3] at h1 h2
      by_cases c4 : up > 0
      · rw [if_pos c4] at h1 h2
        exact ok _ _ _ _ h1 h2
      · rw [if_neg c4] at h1 h2
        exact ok _ _ _ _ h1 h2
    refine ⟨?_, ?_, ?_, fun m fuel u => runOneStep_resetOutputs m fuel h u⟩
    · exact (congrArg Sim.cfg h :)
    · exact (congrArg (fun s : Sim 11 k => s.tank.nodeTs) h :)
    · exact (congrArg (fun s : Sim 11 k => s.setpoint) h :)

/-- **C81.** Finding: `setAllDefaults` does not restore the limit on the cooling of the room: a limit set before
initialising is still in force afterwards. -/
theorem C81_depression_survives (m : Libm) (pow : ℚ → ℚ → ℚ) (hp : PowPos pow) (base : Sim n₀ k₀) (vol EF up low : ℚ)
    {k : ℕ} (s : Sim 11 k) (h : initResistanceTank m pow base vol EF up low = .ok ⟨k, s⟩) :
    s.cfg.maxDepression = base.cfg.maxDepression := by
  have ok : ∀ {k} (src : Fin k → SourceCfg 11 k) UA {k'} (s : Sim 11 k'),
      packed (elementTank m pow base src false vol UA) = .ok ⟨k', s⟩ →
      s.cfg.maxDepression = base.cfg.maxDepression := by
    intro k src UA k' s h
    obtain ⟨rfl, h⟩ := packed_ok h
    obtain ⟨hV, t, ht, hc⟩ := elementTank_ok m pow hp base false vol UA s h
    obtain ⟨-, -, e, -⟩ := configure_cfg hp (by show 0 < t.volume_L; rw [ht]; exact hV) hc
    rw [e]; rfl
  obtain ⟨-, h3, h2, h1⟩ := (C81_accepted_iff m pow hp base vol EF up low).mp ⟨_, h⟩
  unfold initResistanceTank at h
  rw [if_neg (not_lt.mpr h1), if_neg (not_lt.mpr h2), if_neg (not_le.mpr h3)] at h
  by_cases c4 : up > 0
  · rw [if_pos c4] at h
    exact ok _ _ _ h
  · rw [if_neg c4] at h
    exact ok _ _ _ h

/-! ### Concrete tanks -/

/-- The default tank is accepted, whatever the simulator was before; so is one with a single element and one given by
its R-value. -/
example (base : Sim 3 2) :
    (∃ r, initResistanceTankDefault sampleLibm samplePow base = .ok r) ∧
    (∃ r, initResistanceTank sampleLibm samplePow base 180 (98 / 100) 0 550 = .ok r) ∧
    (∃ r, initResistanceTankGeneric sampleLibm samplePow base 180 2 4500 0 = .ok r) ∧
    (¬ ∃ r, initResistanceTankGeneric sampleLibm samplePow base 180 2 0 0 = .ok r) ∧
    (¬ ∃ r, initResistanceTank sampleLibm samplePow base 180 (9 / 10) 4500 549 = .ok r) := by
  refine ⟨(C81_accepted_iff _ _ samplePow_pos _ _ _ _ _).mpr ?_, (C81_accepted_iff _ _ samplePow_pos _ _ _ _ _).mpr ?_,
    (C81_generic_accepted_iff _ _ samplePow_pos _ _ _ _ _).mpr ?_,
    fun h => ?_, fun h => ?_⟩
  · norm_num [GAL_TO_L, LPerGal]
  · norm_num
  · norm_num
  · have := (C81_generic_accepted_iff _ _ samplePow_pos _ _ _ _ _).mp h
    norm_num at this
  · have := (C81_accepted_iff _ _ samplePow_pos _ _ _ _ _).mp h
    norm_num at this

/-- An energy factor of 0.95 with 4500 W is a loss of about 0.92 BTU/h °F, 1.75 kJ/h K. -/
example : 17 / 10 < lossFromEF (95 / 100) 4500 ∧ lossFromEF (95 / 100) 4500 < 18 / 10 ∧
    RatedAt (95 / 100) (lossFromEF (95 / 100) 4500) 4500 := by
  refine ⟨by decide +kernel, by decide +kernel, (lossFromEF_spec (by norm_num) (by norm_num)).1 (by norm_num)⟩

end HPWH
