import Verif.Props.Logics
import Verif.Props.Run

/-! # Accepted configurations (C61) -/

namespace HPWH

open Spec

variable {n k : ℕ}

/-- A logic that can be evaluated: the part of the tank it looks at has increasing heights and some
positive weight; a target state of charge is not negative. -/
def Spec.ValidLogic (l : Logic) : Prop :=
  match l.kind with
  | .temp _ (.weighted d) => ValidDist d
  | .temp _ _ => True
  | .soc _ _ _ _ => 0 ≤ l.decisionPoint
where
  /-- Not empty, heights increasing from 0, some weight positive. -/
  ValidDist (d : WDist) : Prop :=
    d ≠ [] ∧ (d.map (·.height)).IsChain (· < ·) ∧ (∀ p ∈ d, 0 < p.height) ∧ ∃ p ∈ d, 0 < p.weight

/-- `j` is the heat source that `i` backs up: the first with `i` as its backup. -/
def Spec.BacksUp (src : Fin k → SourceCfg n k) (i j : Fin k) : Prop :=
  (src j).backup = some i ∧ ∀ j' < j, (src j').backup ≠ some i

/-- The checks on a heat source. -/
structure Spec.AcceptableSource (src : Fin k → SourceCfg n k) (i : Fin k) : Prop where
  starts : (src i).turnOn ≠ [] ∨ ∃ j, BacksUp src i j ∧ (src j).turnOn ≠ []
  turnOn : ∀ l ∈ (src i).turnOn, ValidLogic l
  shutOff : ∀ l ∈ (src i).shutOff, ValidLogic l
  heat : ValidLogic.ValidDist (src i).heatDist
  airflow : 0 < (src i).airflowFreedom ∧ (src i).airflowFreedom ≤ 1
  defrost : ∀ c, IsHeatPump (src i) c → c.doDefrost = true →
    3 ≤ c.defrostMap.length ∧ c.configuration = .external
  external : ∀ c, IsHeatPump (src i) c → c.configuration = .external → ∃ l, (src i).shutOff = [l]
  pump : ∀ c, IsHeatPump (src i) c → c.configuration ≠ .external → c.extraPumpPower_W = 0

/-- The configurations the simulator accepts. -/
structure Spec.Acceptable (s : Sim n k) : Prop where
  heated : 0 < k ∨ s.cfg.isStorageTank = true
  source : ∀ i, AcceptableSource s.cfg.src i
  setpoint : SetpointAllowed s s.setpoint
  UA : 0 ≤ s.tank.UA
  exchanger : s.tank.heatExchangerEffectiveness ≤ 1
  /-- a heat pump is not shut off below where it is turned on -/
  order : ∀ j c, MainHeatPump s.cfg.src j c →
    ∃ f, s.getSizingFractions = .ok f ∧ 1 - f.2 ≤ f.1

theorem isValid_spec (d : WDist) : d.isValid = true ↔ ValidLogic.ValidDist d := by
  rw [WDist.isValid_iff]
  have key : ∀ (d : WDist) (L : ℚ), WDist.isValidLoop L d = true ↔
      (L :: d.map (·.height)).IsChain (· < ·) := by
    intro d
    induction d with
    | nil => intro L; simp [WDist.isValidLoop]
    | cons p ps ih =>
      intro L
      simp only [WDist.isValidLoop, Bool.and_eq_true, decide_eq_true_eq, ih, List.map_cons,
        List.isChain_cons_cons, gt_iff_lt]
  unfold ValidLogic.ValidDist
  rw [key]
  constructor
  · rintro ⟨h1, h2, h3⟩
    refine ⟨h1, ?_, ?_, h2⟩
    · rcases d with _ | ⟨p, ps⟩
      · simp
      · exact (List.isChain_cons_cons.mp h3).2
    · have hp := List.isChain_iff_pairwise.mp h3
      intro p hp'
      exact List.rel_of_pairwise_cons hp (List.mem_map_of_mem hp')
  · rintro ⟨h1, h2, h3, h4⟩
    refine ⟨h1, h4, ?_⟩
    rw [List.isChain_iff_pairwise, List.pairwise_cons, ← List.isChain_iff_pairwise]
    refine ⟨?_, h2⟩
    intro x hx
    obtain ⟨p, hp, rfl⟩ := List.mem_map.mp hx
    exact h3 p hp

theorem validLogic_iff (l : Logic) : l.isValid = true ↔ ValidLogic l := by
  unfold Logic.isValid ValidLogic
  rcases l.kind with ⟨_, _ | _ | d⟩ | _
  · simp [Dist.isValid]
  · simp [Dist.isValid]
  · exact isValid_spec d
  · simp

theorem parent_iff (s : Sim n k) (i j : Fin k) :
    s.parent i = some j ↔ BacksUp s.cfg.src i j := by
  unfold Sim.parent BacksUp
  rw [List.find?_eq_some_iff_getElem]
  constructor
  · rintro ⟨h1, a, ha, h2, h3⟩
    simp only [List.getElem_finRange, Fin.cast_mk] at h2
    refine ⟨by simpa using h1, fun j' hj' => ?_⟩
    have hv : (j : ℕ) = a := by rw [← h2]
    have := h3 j' (by rw [← hv]; exact hj')
    simpa using this
  · rintro ⟨h1, h2⟩
    refine ⟨by simpa using h1, j, by simp, by simp, fun a ha => ?_⟩
    have := h2 ⟨a, by omega⟩ (by exact ha)
    simpa using this

theorem sourceOk_iff (s : Sim n k) (i : Fin k) :
    s.sourceOk i = true ↔ AcceptableSource s.cfg.src i := by
  have hst : ((!(s.cfg.src i).turnOn.isEmpty || match s.parent i with
      | some j => !(s.cfg.src j).turnOn.isEmpty
      | none => false) = true) ↔
      ((s.cfg.src i).turnOn ≠ [] ∨ ∃ j, BacksUp s.cfg.src i j ∧ (s.cfg.src j).turnOn ≠ []) := by
    rw [Bool.or_eq_true]
    refine or_congr (by simp) ?_
    cases hp : s.parent i with
    | none =>
      simp only [Bool.false_eq_true, false_iff, not_exists, not_and]
      intro j hj
      rw [← parent_iff, hp] at hj
      cases hj
    | some j =>
      simp only [Bool.not_eq_true', List.isEmpty_eq_false_iff, ne_eq]
      constructor
      · intro h; exact ⟨j, (parent_iff s i j).mp hp, h⟩
      · rintro ⟨j', hj', h⟩
        rw [← parent_iff, hp] at hj'
        cases hj'
        exact h
  unfold Sim.sourceOk
  simp only [Bool.and_eq_true]
  constructor
  · rintro ⟨⟨⟨⟨⟨h1, h2⟩, h3⟩, h4⟩, h5⟩, h6⟩
    simp only [List.all_eq_true, validLogic_iff] at h2 h3
    simp only [decide_eq_true_eq, not_or, not_lt, not_le, gt_iff_lt] at h5
    refine ⟨hst.mp h1, h2, h3, (isValid_spec _).mp h4, ⟨h5.2, h5.1⟩, ?_, ?_, ?_⟩
    · intro c hc hd
      rw [show (s.cfg.src i).kind = .condenser c from hc] at h6
      simp only [hd, Bool.not_true, Bool.false_or, Bool.and_eq_true, decide_eq_true_eq] at h6
      exact h6.1
    · intro c hc hd
      rw [show (s.cfg.src i).kind = .condenser c from hc] at h6
      simp only [hd, Bool.and_eq_true, if_true, decide_eq_true_eq] at h6
      exact List.length_eq_one_iff.mp h6.2
    · intro c hc hd
      rw [show (s.cfg.src i).kind = .condenser c from hc] at h6
      simp only [hd, Bool.and_eq_true, if_false, decide_eq_true_eq] at h6
      exact h6.2
  · rintro ⟨h1, h2, h3, h4, h5, h6, h7, h8⟩
    refine ⟨⟨⟨⟨⟨hst.mpr h1, ?_⟩, ?_⟩, (isValid_spec _).mpr h4⟩, ?_⟩, ?_⟩
    · simpa only [List.all_eq_true, validLogic_iff] using h2
    · simpa only [List.all_eq_true, validLogic_iff] using h3
    · simp only [decide_eq_true_eq, not_or, not_lt, not_le, gt_iff_lt]
      exact ⟨h5.2, h5.1⟩
    · cases hk : (s.cfg.src i).kind with
      | resistance _ => rfl
      | condenser c =>
        have h6 := h6 c hk
        have h7 := h7 c hk
        have h8 := h8 c hk
        simp only [Bool.and_eq_true, Bool.or_eq_true, Bool.not_eq_true', decide_eq_true_eq]
        refine ⟨?_, ?_⟩
        · cases hd : c.doDefrost with
          | false => exact Or.inl rfl
          | true => exact Or.inr (h6 hd)
        · by_cases hc : c.configuration = .external
          · simp only [hc, if_true, decide_eq_true_eq]
            obtain ⟨l, hl⟩ := h7 hc
            simp [hl]
          · simp only [hc, if_false, decide_eq_true_eq]
            exact h8 hc

theorem ite_ok_iff {b : Bool} : (if b then Except.ok () else Except.error Err.error : Res Unit) = .ok () ↔
    b = true := by cases b <;> simp

/-- **C61.** Exactly the configurations meeting the stated conditions are accepted. -/
theorem C61_accepts_iff (s : Sim n k) (hk : Known s) : s.checkInputs = .ok () ↔ Acceptable s := by
  have hg : s.globalOk = true ↔ (0 < k ∨ s.cfg.isStorageTank = true) ∧
      SetpointAllowed s s.setpoint ∧ 0 ≤ s.tank.UA ∧ s.tank.heatExchangerEffectiveness ≤ 1 := by
    unfold Sim.globalOk
    simp only [Bool.and_eq_true, Bool.or_eq_true, decide_eq_true_eq, newSetpointPossible_iff hk, not_lt,
      gt_iff_lt]
    tauto
  have hs : s.sizingOk = .ok true ↔ ∀ j c, MainHeatPump s.cfg.src j c →
      ∃ f, s.getSizingFractions = .ok f ∧ 1 - f.2 ≤ f.1 := by
    unfold Sim.sizingOk
    cases hc : s.cfg.compressorIndex with
    | none =>
      simp only [true_iff]
      intro j c hj
      have := (hk.heatPump j).mpr ⟨c, hj⟩
      rw [hc] at this
      cases this
    | some j =>
      obtain ⟨c, hj⟩ := (hk.heatPump j).mp hc
      simp only [bind_ok_iff]
      constructor
      · rintro ⟨f, hf, h⟩ _ _ _
        refine ⟨f, hf, ?_⟩
        simp only [pure, Except.pure, Except.ok.injEq, decide_eq_true_eq, not_lt] at h
        exact h
      · intro h
        obtain ⟨f, hf, h⟩ := h j c hj
        refine ⟨f, hf, ?_⟩
        simp only [pure, Except.pure, Except.ok.injEq, decide_eq_true_eq, not_lt]
        exact h
  unfold Sim.checkInputs
  rw [bind_ok_iff]
  simp only [ite_ok_iff, Bool.and_eq_true, decide_eq_true_eq, sourceOk_iff, hg]
  constructor
  · rintro ⟨b, hb, ⟨rfl, h1, h2, h3, h4⟩, h5⟩
    exact ⟨h1, h5, h2, h3, h4, hs.mp hb⟩
  · rintro ⟨h1, h2, h3, h4, h5, h6⟩
    exact ⟨true, hs.mpr h6, ⟨rfl, h1, h3, h4, h5⟩, h2⟩

/-! ### Spread of the heat -/

/-- A logarithm on the rationals, as far as needed: increasing, zero at one, and turning inverses into
negatives. -/
structure Spec.LogLike (log : ℚ → ℚ) : Prop where
  one : log 1 = 0
  mono : ∀ x y, 0 < x → x ≤ y → log x ≤ log y
  inv : ∀ x, 0 < x → log x⁻¹ = -log x

/-- No node gets more than a twelfth of the tank would: the heat is spread over at least a twelfth. -/
def Spec.SpreadOut (d : WDist) (N : ℕ) : Prop :=
  ∀ i : Fin N, ∀ w, d.normalizedWeight ((i : ℚ) / N) (((i : ℚ) + 1) / N) = .ok w → w * N ≤ 12

theorem entropyLoop_ge {log : ℚ → ℚ} {d : WDist} {N : ℕ} (h : d.Proper) {b : ℚ}
    (hb : ∀ i : ℕ, i < N → 0 < d.share N i → b ≤ -log (d.share N i)) :
    ∀ (room i : ℕ) (e : ℚ), i + room = N →
      e + b * ∑ j ∈ Finset.range room, d.share N (i + j) ≤ Sim.entropyLoop log d N i room e
  | 0, i, e, _ => by simp [Sim.entropyLoop]
  | room + 1, i, e, hi => by
    rw [Sim.entropyLoop, WDist.nodeShare_eq h]
    dsimp only
    refine le_trans ?_ (entropyLoop_ge h hb room (i + 1) _ (by omega))
    rw [Finset.sum_range_succ']
    have e1 : ∀ j, d.share N (i + 1 + j) = d.share N (i + (j + 1)) := fun j => by congr 1; omega
    simp only [e1, add_zero]
    have h0 := WDist.share_nonneg h N i
    rcases h0.eq_or_lt with h0 | h0
    · rw [← h0, if_neg (lt_irrefl 0)]; simp
    · rw [if_pos h0]
      have := mul_le_mul_of_nonneg_left (hb i (by omega) h0) h0.le
      linarith

/-- **C61.** Heat that is spread over at least a twelfth of the tank has a thermal spread of at least
one degree. -/
theorem C61_spread (log : ℚ → ℚ) (hl : LogLike log) (d : WDist) (hd : d.Proper)
    (hs : SpreadOut d (n + 1)) : 1 ≤ Sim.findShrinkage log d (n + 1) := by
  have hN : (0 : ℚ) < ((n + 1 : ℕ) : ℚ) := by positivity
  have hw : ∀ i : ℕ, i < n + 1 → d.share (n + 1) i * ((n + 1 : ℕ) : ℚ) ≤ 12 := by
    intro i hi
    have := WDist.nodeShare_eq hd (n + 1) i
    unfold WDist.nodeShare at this
    push_cast at this
    exact hs ⟨i, hi⟩ _ (by push_cast; exact this)
  have hsum := WDist.sum_share hd (Nat.succ_pos n)
  rw [Fin.sum_univ_eq_sum_range (fun j => d.share (n + 1) j) (n + 1)] at hsum
  unfold Sim.findShrinkage
  have key : ∀ b : ℚ, (∀ i : ℕ, i < n + 1 → 0 < d.share (n + 1) i → b ≤ -log (d.share (n + 1) i)) →
      b ≤ Sim.entropyLoop log d (n + 1) 0 (n + 1) 0 := by
    intro b hb
    have := entropyLoop_ge hd hb (n + 1) 0 0 (by omega)
    simp only [zero_add, hsum, mul_one] at this
    exact this
  have h1 : log (((n + 1 : ℕ) : ℚ) / 12) ≤ Sim.entropyLoop log d (n + 1) 0 (n + 1) 0 := by
    refine key _ fun i hi h0 => ?_
    have e : (((n + 1 : ℕ) : ℚ) / 12) = ((12 : ℚ) / ((n + 1 : ℕ) : ℚ))⁻¹ := by rw [inv_div]
    rw [e, hl.inv _ (by positivity)]
    have := hl.mono _ _ h0 ((le_div_iff₀ hN).mpr (hw i hi))
    linarith
  linarith

/-- Finding: a heat distribution narrower than that is accepted as well, but its thermal spread can be
negative: with 24 nodes and all the heat in the lowest, for any logarithm with `log 1 = 0` and
`log 2 > 1/2`. -/
theorem C61_narrow_heat_negative_spread (log : ℚ → ℚ) (h1 : log 1 = 0) (h2 : 1 / 2 < log 2) :
    WDist.isValid [⟨1 / 24, 1⟩, ⟨1, 0⟩] = true ∧
    Sim.findShrinkage log [⟨1 / 24, 1⟩, ⟨1, 0⟩] 24 < 0 := by
  refine ⟨by decide +kernel, ?_⟩
  have hshare : ∀ i : Fin 24, WDist.nodeShare [⟨1 / 24, 1⟩, ⟨1, 0⟩] 24 i =
      .ok (if i = 0 then 1 else 0) := by decide +kernel
  have key : ∀ room i : ℕ, i + room = 24 → 0 < i → ∀ e,
      Sim.entropyLoop log [⟨1 / 24, 1⟩, ⟨1, 0⟩] 24 i room e = e := by
    intro room
    induction room with
    | zero => intro i _ _ e; rfl
    | succ room ih =>
      intro i hi h0 e
      have := hshare ⟨i, by omega⟩
      rw [if_neg (by intro h; simp [Fin.ext_iff] at h; omega)] at this
      rw [Sim.entropyLoop, this]
      simp only [gt_iff_lt, lt_irrefl, if_false]
      exact ih (i + 1) (by omega) (by omega) e
  have h0 := hshare 0
  simp only [if_true] at h0
  unfold Sim.findShrinkage
  have e0 : Sim.entropyLoop log [⟨1 / 24, 1⟩, ⟨1, 0⟩] 24 0 24 0 = 0 := by
    rw [Sim.entropyLoop, show WDist.nodeShare [⟨1 / 24, 1⟩, ⟨1, 0⟩] 24 0 = .ok 1 from h0]
    simp only [gt_iff_lt, zero_lt_one, if_true, h1]
    rw [key 23 1 (by omega) (by omega)]
    ring
  rw [e0]
  norm_num
  linarith

/-! ### From acceptance to the energy balance -/

/-- What the library does not check about a configuration, but a meaningful one has. -/
structure Spec.Meaningful (s : Sim n k) : Prop where
  nodes : n + 1 ≤ 10000
  volume : 0 < s.tank.volume_L
  inlet : s.tank.inletHeight ≤ n
  inlet2 : s.tank.inlet2Height ≤ n
  mixBelow : s.tank.mixBelowFractionOnDraw ≤ 1
  mixing : s.tank.doInversionMixing = true
  exchanger : 0 ≤ s.tank.heatExchangerEffectiveness
  step : 0 ≤ s.cfg.minutesPerStep
  absolute : -27315 / 100 < s.setpoint
  weights : ∀ i, ∀ p ∈ (s.cfg.src i).heatDist, 0 ≤ p.weight
  spread : ∀ i, SpreadOut (s.cfg.src i).heatDist (n + 1)
  power : ∀ i w, (s.cfg.src i).kind = .resistance w → 0 < w
  ports : ∀ i c, IsHeatPump (s.cfg.src i) c → c.configuration = .external →
    (s.cfg.src i).externalOutlet ≤ (s.cfg.src i).externalInlet
  flow : ∀ i c, IsHeatPump (s.cfg.src i) c → c.configuration = .external → c.isMultipass = true →
    0 < c.mpFlowRate_LPS
  limits : ∀ i c, IsHeatPump (s.cfg.src i) c → c.configuration = .external → c.isMultipass = false →
    ∀ l ∈ (s.cfg.src i).shutOff, l.UpperLimit
  output : ∀ i c, IsHeatPump (s.cfg.src i) c → ∀ x air water perf,
    c.getPerformance (s.cfg.src i).airflowFreedom x air water = .ok perf → 0 < perf.outputPower_W

theorem configure_ok {m : Libm} {pow : ℚ → ℚ → ℚ} {s s' : Sim n k}
    (h : s.configure m pow = .ok s') : ∃ s1, s.calcDerivedValues m pow = .ok s1 ∧
      s1.checkInputs = .ok () ∧
      s' = { s1.resetTankToSetpoint with isHeating := decide (∃ i, (s1.st i).isOn = true) } := by
  unfold Sim.configure at h
  obtain ⟨s1, h1, h⟩ := (bind_ok_iff _ _ _).mp h
  obtain ⟨_, h2, h⟩ := (bind_ok_iff _ _ _).mp h
  cases h
  exact ⟨s1, h1, h2, rfl⟩

theorem sourceOk_valid {s : Sim n k} (h : s.checkInputs = .ok ()) (i : Fin k) :
    (s.cfg.src i).heatDist.isValid = true := by
  unfold Sim.checkInputs at h
  obtain ⟨b, -, h⟩ := (bind_ok_iff _ _ _).mp h
  rw [ite_ok_iff] at h
  simp only [Bool.and_eq_true, decide_eq_true_eq] at h
  exact (isValid_spec _).mpr ((sourceOk_iff s i).mp (h.2 i)).heat

theorem avgFract_congr (p p' : Plant n) (l : Logic) :
    Sim.avgFract l p' = Sim.avgFract l p := by
  unfold Sim.avgFract Logic.comparisonValue
  rcases l.kind with ⟨_ | _, _ | _ | d⟩ | _ <;> simp

theorem aquaLoop_congr (p p' : Plant n) :
    ∀ (ls : List Logic) (a : ℚ), Sim.aquaLoop p' ls a = Sim.aquaLoop p ls a
  | [], _ => rfl
  | l :: ls, a => by simp only [Sim.aquaLoop, avgFract_congr p p', aquaLoop_congr p p' ls]

theorem useLoop_congr (p p' : Plant n) :
    ∀ (ls : List Logic) (a : ℚ), Sim.useLoop p' ls a = Sim.useLoop p ls a
  | [], _ => rfl
  | l :: ls, a => by simp only [Sim.useLoop, avgFract_congr p p', useLoop_congr p p' ls]

/-- The sizing fractions depend on settings only, not on the temperatures in the tank. -/
theorem sizing_congr {s s' : Sim n k} (h1 : s'.cfg = s.cfg)
    (h3 : s'.socControl = s.socControl) : s'.getSizingFractions = s.getSizingFractions := by
  unfold Sim.getSizingFractions Sim.compressor
  rw [h1, h3]
  simp only [aquaLoop_congr s.toPlant s'.toPlant,
    useLoop_congr s.toPlant s'.toPlant]

theorem sizing_reset (s : Sim n k) (b : Bool) :
    Sim.getSizingFractions { s.resetTankToSetpoint with isHeating := b } = s.getSizingFractions := by
  refine sizing_congr ?_ ?_ <;> rfl

/-- **C61.** After a configuration has been accepted: it meets the stated conditions, the simulator knows
its heat sources, the tank is at the setpoint throughout, the simulator is heating exactly if a heat
source is on, and the setpoint and the states of the heat sources are as before. -/
theorem C61_configured (m : Libm) (pow : ℚ → ℚ → ℚ) (s s' : Sim n k)
    (h : s.configure m pow = .ok s') :
    Known s' ∧ Acceptable s' ∧ (∀ j, s'.tank.nodeTs j = s'.setpoint) ∧
    (s'.isHeating = true ↔ ∃ i, (s'.st i).isOn = true) ∧ s'.setpoint = s.setpoint ∧ s'.st = s.st := by
  obtain ⟨s1, h1, h2, rfl⟩ := configure_ok h
  have hv : ∀ i, (s.cfg.src i).heatDist.isValid = true := fun i => by
    obtain ⟨-, hd, -⟩ := calcDerived_index h1
    rw [← hd]; exact sourceOk_valid h2 i
  have hk := C59_known m pow s s1 hv h1
  have ha := (C61_accepts_iff s1 hk).mp h2
  have e : s1.setpoint = s.setpoint ∧ s1.st = s.st := by
    obtain ⟨ix, t, mp, -, -, -, rfl⟩ := calcDerived_ok h1
    exact ⟨rfl, rfl⟩
  exact ⟨⟨hk.heatPump, hk.element⟩, ⟨ha.heated, ha.source, ha.setpoint, ha.UA, ha.exchanger,
      fun j c hj => by
        obtain ⟨f, hf, hle⟩ := ha.order j c hj
        exact ⟨f, (sizing_reset s1 _).trans hf, hle⟩⟩,
    fun _ => rfl, by simp [Sim.resetTankToSetpoint], e⟩

/-- **C61.** A meaningful configuration, once accepted, is one whose every step is accounted for. -/
theorem C61_accountable (m : Libm) (hl : LogLike m.log) (pow : ℚ → ℚ → ℚ) (hp : PowPos pow)
    (hp1 : ∀ x y, 0 ≤ x → x ≤ 1 → 0 ≤ pow x y ∧ pow x y ≤ 1) (s s' : Sim n k) (hm : Meaningful s)
    (h : s.configure m pow = .ok s') : s'.AlwaysAccountable := by
  obtain ⟨-, ha, -⟩ := C61_configured m pow s s' h
  obtain ⟨s1, h1, h2, rfl⟩ := configure_ok h
  have hv : ∀ i, (s1.cfg.src i).heatDist.isValid = true := fun i => sourceOk_valid h2 i
  obtain ⟨ix, t, mp, -, h3, -, rfl⟩ := calcDerived_ok h1
  obtain ⟨t', h3', hsz, hsb⟩ := C41_sizes pow hp s.tank hm.volume
  cases h3.symm.trans h3'
  have hN : ((n : ℚ) + 1) ≠ 0 := by positivity
  have hproper : ∀ i, (s.cfg.src i).heatDist.Proper := fun i => ⟨hv i, hm.weights i⟩
  have hshr : ∀ i, Sim.findShrinkage m.log (s.cfg.src i).heatDist (n + 1) ≠ 0 := fun i => by
    have := C61_spread m.log hl _ (hproper i) (hm.spread i)
    linarith
  have hex : 0 ≤ t.heatExchangerEffectiveness ∧ t.heatExchangerEffectiveness ≤ 1 := by
    refine ⟨?_, ha.exchanger⟩
    rw [hsb]; exact hm.exchanger
  refine
    { nodes := hm.nodes, volume := ?_, nodeVolume := ?_, nodeCp := hsz.nodeCp, inlet := ?_
      inlet2 := ?_, mixBelow := ?_, mixing := ?_
      effectiveness := fun _ => C41_effectiveness pow hp1 t hsz hex.1 hex.2
      step := hm.step, absolute := hm.absolute, sound := fun i air lo => ?_ }
  · show 0 < t.volume_L
    rw [hsb]; exact hm.volume
  · show t.nodeVolume_L = t.volume_L / (n + 1)
    rw [eq_div_iff hN]; exact hsz.nodeVolume
  · show t.inletHeight ≤ n
    rw [hsb]; exact hm.inlet
  · show t.inlet2Height ≤ n
    rw [hsb]; exact hm.inlet2
  · show t.mixBelowFractionOnDraw ≤ 1
    rw [hsb]; exact hm.mixBelow
  · show t.doInversionMixing = true
    rw [hsb]; exact hm.mixing
  · refine ⟨fun w hw => ⟨hm.power i w hw, hproper i⟩, fun c hc _ => ⟨hproper i, hshr i⟩,
      fun c hc he => ⟨hm.ports i c hc he, fun hmp => ⟨hm.flow i c hc he hmp, rfl⟩,
        fun hmp => hm.limits i c hc he hmp⟩, fun c hc x _ water perf _ _ hpf =>
        hm.output i c hc x air water perf hpf⟩

/-- **C61, C34.** From the configuration to the balance: after a meaningful configuration has been
accepted, every run of any length that ends without an error balances. -/
theorem C61_runs_balance (m : Libm) (hexp : ∀ x, 0 ≤ m.exp x) (hl : LogLike m.log)
    (pow : ℚ → ℚ → ℚ) (hp : PowPos pow) (hp1 : ∀ x y, 0 ≤ x → x ≤ 1 → 0 ≤ pow x y ∧ pow x y ≤ 1)
    (fuel : ℕ) (s s0 s' : Sim n k) (hm : Meaningful s) (hc : s.configure m pow = .ok s0)
    (us : List Sim.RunInput) (hd : ∀ u ∈ us, 0 ≤ u.draw_L)
    (h : Sim.runNSteps m fuel s0 us = .ok s') :
    tankHeat s0.tank.volume_L s'.tank.nodeTs = tankHeat s0.tank.volume_L (fun _ : Fin (n + 1) => s.setpoint) +
      3600 * ∑ i, (s'.st i).energyOutput_kWh +
      ∑ t : Fin us.length, waterHeat us[t].draw_L us[t].inletT -
      waterHeat (∑ t : Fin us.length, us[t].draw_L) s'.tank.outletT -
      3600 * s'.standbyLosses_kWh := by
  obtain ⟨-, -, ht, -, hsp, -⟩ := C61_configured m pow s s0 hc
  have e : s0.tank.nodeTs = fun _ => s.setpoint := funext fun j => (ht j).trans hsp
  rw [← e]
  exact C34_run_energy_balance m hexp fuel s0 s' us (C61_accountable m hl pow hp hp1 s s0 hm hc) hd h

/-! ### A configuration that is meaningful and accepted -/

/-- The sample simulator with a heat pump that starts on the top and stops on the bottom of the tank. -/
def sampleReady : Sim 3 2 :=
  { sampleSim with
    cfg := { sampleSim.cfg with
      src := ![{ sampleSource with
                  backup := some 1
                  turnOn := [sampleStandby]
                  shutOff := [sampleShutOff] },
               sampleElement] } }

theorem sampleReady_known : Known sampleReady := known_of_kinds sampleReady _ _ rfl rfl rfl rfl

theorem sampleReady_accepted : ∃ s', sampleReady.configure sampleLibm samplePow = .ok s' ∧
    s'.tank.nodeTs 0 = 55 ∧ s'.cfg.compressorIndex = some 0 := by
  decide +kernel

/-- `C61_accepts_iff` is about a condition that some configurations meet and others do not: the sample is
accepted, with a setpoint of 101 °C it is not, nor if the heat pump starts on the bottom and stops on the
top of the tank. -/
example : sampleReady.checkInputs = .ok () ∧
    { sampleReady with setpoint := 101 }.checkInputs = .error .error ∧
    sampleSim.checkInputs = .error .error := by decide +kernel

theorem sampleLog : LogLike sampleLibm.log :=
  ⟨rfl, fun _ _ _ _ => le_rfl, fun _ _ => by simp [sampleLibm]⟩

theorem samplePow_pos : PowPos samplePow := fun _ _ _ => by norm_num [samplePow]

theorem sampleReady_meaningful : Meaningful sampleReady := by
  have k0 : (sampleReady.cfg.src 0).kind = .condenser sampleCond := rfl
  have k1 : (sampleReady.cfg.src 1).kind = .resistance (9 / 2) := rfl
  have pump : ∀ i c, IsHeatPump (sampleReady.cfg.src i) c → c = sampleCond := by
    refine Fin.forall_fin_two.mpr ⟨fun c hc => ?_, fun c hc => ?_⟩
    · rw [IsHeatPump, k0] at hc; cases hc; rfl
    · rw [IsHeatPump, k1] at hc; cases hc
  have hspread : ∀ i, ∀ x : Fin 4, ∃ w,
      (sampleReady.cfg.src i).heatDist.normalizedWeight ((x : ℚ) / 4) (((x : ℚ) + 1) / 4) = .ok w ∧
        w * 4 ≤ 12 := by decide +kernel
  exact
    { nodes := by decide
      volume := by decide +kernel
      inlet := by decide +kernel
      inlet2 := by decide +kernel
      mixBelow := by decide +kernel
      mixing := rfl
      exchanger := by decide +kernel
      step := by decide +kernel
      absolute := by decide +kernel
      weights := by decide +kernel
      spread := by
        intro i x w hw
        obtain ⟨w', h1, h2⟩ := hspread i x
        have : (Except.ok w : Res ℚ) = .ok w' := by rw [← h1, ← hw]; norm_num
        cases this
        norm_num
        exact h2
      power := by
        refine Fin.forall_fin_two.mpr ⟨fun c hc => ?_, fun c hc => ?_⟩
        · rw [k0] at hc; cases hc
        · rw [k1] at hc; cases hc; norm_num
      ports := fun i c h he => by rw [pump i c h] at he; cases he
      flow := fun i c h he => by rw [pump i c h] at he; cases he
      limits := fun i c h he => by rw [pump i c h] at he; cases he
      output := fun i c h x air water perf hp => by
        rw [pump i c h] at hp
        have ha : ∀ i, (sampleReady.cfg.src i).airflowFreedom = 1 := by decide +kernel
        rw [ha] at hp
        simp only [CondCfg.getPerformance, sampleCond] at hp
        norm_num [pure, Except.pure, bind, Except.bind] at hp
        rw [← hp]
        norm_num }

/-- The sample can be run after it has been accepted. -/
example : ∃ s0, sampleReady.configure sampleLibm samplePow = .ok s0 ∧
    ∃ s', Sim.runNSteps sampleLibm 10 s0 (sampleRun.map fun u => { u with draw_L := 190 }) = .ok s' ∧
      0 < (s'.st 0).energyOutput_kWh := by
  decide +kernel

end HPWH
