import Verif.Props.DayTest

/-! # A water heater whose 24-hour test returns

The test's results are not literals one could evaluate: its 1500 minutes are followed by a small
automaton. After every minute the water heater is in one of four states: full and off, or heating after a
draw of 1, 2 or 1½ gallons. -/

namespace HPWH

open Spec _root_.HPWH.Units

/-- A water heater of 60 galLitres with a 9 kW element, at the test's setpoint throughout. -/
def daySim : Sim 1 1 where
  tank :=
    { volume_L := 60, nodeTs := fun _ => F_TO_C 125, standbyLosses_kJ := 0, mixesOnDraw := false
      mixBelowFractionOnDraw := 0, doInversionMixing := true, doConduction := false, volumeFixed := false
      nodeVolume_L := 30, nodeCp := cpWater * rhoWater * 30, nodeHeight_m := 1 / 2
      fracAreaTop := 1 / 4, fracAreaSide := 1 / 2, UA := 0, fittingsUA := 0
      inletHeight := 0, inlet2Height := 0, hasHeatExchanger := false
      heatExchangerEffectiveness := 9 / 10, nodeHeatExchangerEffectiveness := 1 / 2, outletT := 0 }
  setpoint := F_TO_C 125
  inletT := 0
  haveInletT := false
  socControl := none
  soc := 0
  condenserInlet := 0
  condenserOutlet := 0
  externalVolumeHeated := 0
  cfg :=
    { src := fun _ =>
        { kind := .resistance 9, isVIP := false, backup := none, companion := none, followedBy := none
          heatDist := sampleDist, shrinkageT := 1, lowestNode := 0
          turnOn := [⟨.temp false .bottom, 1 / 10, .less, false, false, ""⟩]
          shutOff := [], standby := none, minT := -100, maxT := 100, depressesTemperature := false
          airflowFreedom := 1, externalInlet := 1, externalOutlet := 0 }
      minutesPerStep := 1, doTempDepression := false, maxDepression := 3, timerLimitTOT := 60
      compressorIndex := none, lowestElementIndex := some 0, vipIndex := none
      setpointFixed := false, isStorageTank := false, canScale := false, heightMap := [(0, 0)] }
  st := fun _ => ⟨false, false, 0, 0, 0⟩
  isHeating := false
  locationT := -500
  timerTOT := 0
  energyRemoved_kWh := 0
  standbyLosses_kWh := 0
  extraEnergyInput_kWh := 0

/-- The water heater with the bottom node at `b`, heating or not. -/
def dayState (b : ℚ) (f : Bool) : Sim 1 1 :=
  { daySim with
    tank := { daySim.tank with nodeTs := ![b, 155 / 3] }
    inletT := testConditionsUEF.inletT
    haveInletT := true
    st := fun _ => ⟨f, false, 0, 0, 0⟩
    isHeating := f }

/-- The same state up to outputs and the inlet temperature. -/
def Like (s : Sim 1 1) (b : ℚ) (f : Bool) : Prop :=
  (s.setInletT testConditionsUEF.inletT).resetOutputs = dayState b f

theorem runOneStep_reset {n k : ℕ} (m : Libm) (fuel : ℕ) (u : Sim.StepInput) (s : Sim n k) :
    s.runOneStep m fuel u = s.resetOutputs.runOneStep m fuel u := rfl

theorem Like.step {s : Sim 1 1} {b : ℚ} {f : Bool} (h : Like s b f) (dr : DR) (v : ℚ) :
    s.testStep sampleLibm 5 testConditionsUEF dr v =
      (dayState b f).testStep sampleLibm 5 testConditionsUEF dr v := by
  unfold Sim.testStep
  rw [runOneStep_reset, h]
  rfl

theorem Like.isHeating {s : Sim 1 1} {b : ℚ} {f : Bool} (h : Like s b f) : s.isHeating = f := by
  have := congrArg Sim.isHeating h
  exact this

theorem Like.volume {s : Sim 1 1} {b : ℚ} {f : Bool} (h : Like s b f) : s.tank.volume_L = 60 :=
  congrArg (fun x : Sim 1 1 => x.tank.volume_L) h

theorem daySim_usable : Usable daySim := by
  refine ⟨⟨⟨?_, ?_, ?_⟩, ?_, ?_, ?_⟩, ?_⟩ <;> decide +kernel

theorem dayState_usable (b : ℚ) (f : Bool) : Usable (dayState b f) :=
  ⟨daySim_usable.1.of_cfg rfl, daySim_usable.2⟩

/-- What is to be computed of a minute. -/
def Leads (v b : ℚ) (f : Bool) (b' : ℚ) (f' : Bool) : Prop :=
  ∃ s', (dayState b f).testStep sampleLibm 5 testConditionsUEF noSignal v = .ok s' ∧
    s'.tank.nodeTs 0 = b' ∧ s'.tank.nodeTs 1 = 155 / 3 ∧ s'.isHeating = f' ∧ (s'.st 0).isOn = f' ∧
    (s'.st 0).lockedOut = false ∧ s'.soc = 0 ∧ s'.locationT = -500 ∧ s'.timerTOT = 0 ∧
    0 ≤ (s'.st 0).energyInput_kWh ∧ (v ≠ 0 → s'.tank.outletT = 155 / 3 ∧ 0 < (s'.st 0).energyInput_kWh)

instance (v b : ℚ) (f : Bool) (b' : ℚ) (f' : Bool) : Decidable (Leads v b f b' f') := by
  unfold Leads; infer_instance

theorem Like.next {s : Sim 1 1} {v b : ℚ} {f : Bool} {b' : ℚ} {f' : Bool} (hv : 0 ≤ v)
    (h : Like s b f) (hl : Leads v b f b' f') :
    ∃ s', s.testStep sampleLibm 5 testConditionsUEF noSignal v = .ok s' ∧ Like s' b' f' ∧
      0 ≤ (s'.st 0).energyInput_kWh ∧
      (v ≠ 0 → s'.tank.outletT = 155 / 3 ∧ 0 < (s'.st 0).energyInput_kWh) := by
  obtain ⟨s', e, h1, h2, h3, h4, h5, h6, h7, h8, h9⟩ := hl
  refine ⟨s', (h.step _ _).trans e, ?_, h9⟩
  obtain ⟨g1, g2, g3, g4, g5, g6⟩ := testMinute_same (dayState_usable b f) hv (testStep_iff.mp e)
  have e1 : s'.tank.nodeTs = ![b', 155 / 3] := by
    funext i
    match i with
    | 0 => exact h1
    | 1 => exact h2
  have e2 : (fun i => ({ s'.st i with runtime_min := 0, energyInput_kWh := 0, energyOutput_kWh := 0 } :
      SourceState)) = fun _ => ⟨f', false, 0, 0, 0⟩ := by
    funext i
    obtain rfl : i = 0 := Subsingleton.elim _ _
    dsimp only
    rw [h4, h5]
  unfold Like Sim.setInletT Sim.resetOutputs
  simp only [e2, g2, g3, g6, h3, h6, h7, h8]
  unfold dayState
  simp only
  congr 1
  congr 1
  · rw [g1, e1]
    rfl

/-- The four states. -/
inductive Stage
  | full | one | two | prepared
  deriving DecidableEq

/-- Temperature of the bottom node. -/
def Stage.bottom : Stage → ℚ
  | .full => 155 / 3
  | .one => 11521047785023 / 224591400000
  | .two => 5719103285023 / 112295700000
  | .prepared => 7329084785023 / 149727600000

/-- Whether the element is on. -/
def Stage.on : Stage → Bool
  | .full => false
  | _ => true

/-- The next state after a minute with a draw of `v` galLitres. -/
def Stage.next (g : Stage) (v : ℚ) : Option Stage :=
  match g with
  | .full => if v = 0 then some .full else if v = galLitres (1 / 2) then some .full
      else if v = galLitres 1 then some .one else if v = galLitres (3 / 2) then some .prepared else none
  | .one => if v = 0 then some .full else if v = galLitres (1 / 2) then some .full
      else if v = galLitres 1 then some .two else none
  | .two => if v = 0 then some .full else none
  | .prepared => if v = 0 then some .full else none

theorem stage_leads : ∀ (g : Stage) (v : ℚ) (g' : Stage), g.next v = some g' →
    0 ≤ v ∧ Leads v g.bottom g.on g'.bottom g'.on := by
  intro g v g' h
  cases g <;> simp only [Stage.next] at h <;> split_ifs at h
  all_goals (cases h; subst_vars; exact ⟨by decide +kernel, by decide +kernel⟩)

/-- The day of the test as a run of the automaton. -/
def dayRun : (t count : ℕ) → Sim.Schedule → Stage → Bool
  | _, 0, _, _ => true
  | t, count + 1, q, g =>
    match g.next (q.tick 60 t).step_L with
    | none => false
    | some g' => dayRun (t + 1) count (q.tick 60 t) g'

theorem dayRun_accepts : dayRun 0 1441 (Sim.Schedule.init (drawPatterns .verySmall)) .full = true := by
  decide +kernel

/-- The last state of such a run. -/
def dayEnd : (t count : ℕ) → Sim.Schedule → Stage → Option Stage
  | _, 0, _, g => some g
  | t, count + 1, q, g =>
    match g.next (q.tick 60 t).step_L with
    | none => none
    | some g' => dayEnd (t + 1) count (q.tick 60 t) g'

theorem dayEnd_full : dayEnd 0 1441 (Sim.Schedule.init (drawPatterns .verySmall)) .full = some .full := by
  decide +kernel

theorem Stage.step {g g' : Stage} {v : ℚ} {s : Sim 1 1} (h : g.next v = some g')
    (hs : Like s g.bottom g.on) :
    ∃ s', s.testStep sampleLibm 5 testConditionsUEF Sim.drAllow v = .ok s' ∧ Like s' g'.bottom g'.on ∧
      0 ≤ (s'.st 0).energyInput_kWh ∧
      (v ≠ 0 → s'.tank.outletT = 155 / 3 ∧ 0 < (s'.st 0).energyInput_kWh) :=
  hs.next (stage_leads g v g' h).1 (stage_leads g v g' h).2

theorem day_returns : ∀ (count t : ℕ) (d : Sim.Day 1 1) (g : Stage) (T0 : ℚ),
    Like d.sim g.bottom g.on → dayRun t count d.schedule g = true →
    ∃ d', Sim.Day.loop sampleLibm 5 testConditionsUEF T0 t count d = .ok d' := by
  intro count
  induction count with
  | zero => intro t d g T0 _ _; exact ⟨d, rfl⟩
  | succ count ih =>
    intro t d g T0 hl hr
    rw [dayRun] at hr
    cases e : g.next (d.schedule.tick 60 t).step_L with
    | none => rw [e] at hr; cases hr
    | some g' =>
      rw [e] at hr
      obtain ⟨s', h1, h2, -⟩ := Stage.step e hl
      have hq : ∀ u : ℚ, (d.schedule.start d.sim.tank.volume_L u).limit = d.schedule.tick 60 u := by
        intro u; rw [hl.volume]; rfl
      obtain ⟨d', h3⟩ := ih (t + 1) ⟨s', d.schedule.tick 60 t,
        d.sums.add s' testConditionsUEF (d.schedule.start d.sim.tank.volume_L t).isDrawing
          (d.schedule.tick 60 t).step_L,
        d.phases.next s' testConditionsUEF T0 t (d.schedule.tick 60 t).step_L
          (0 + ∑ i, KWH_TO_KJ (s'.st i).energyInput_kWh) (d.schedule.tick 60 t).isDrawing
          (d.sums.add s' testConditionsUEF (d.schedule.start d.sim.tank.volume_L t).isDrawing
            (d.schedule.tick 60 t).step_L).hasHeated,
        d.records ++ [⟨t, testConditionsUEF.inletT, (d.schedule.tick 60 t).step_L, s'.tank.outletT,
          fun i => (s'.st i).energyInput_kWh, fun i => (s'.st i).energyOutput_kWh, testConditionsUEF.ambientT,
          s'.setpoint, s'.thermocouples⟩]⟩ g' T0 h2 hr
      refine ⟨d', ?_⟩
      rw [Sim.Day.loop, bind_ok_iff]
      refine ⟨_, ?_, h3⟩
      rw [Sim.Day.minute, bind_ok_iff]
      refine ⟨s', by rw [hq]; exact h1, ?_⟩
      simp only [hq]

theorem idle_returns : ∀ (i limit pre : ℕ) (s : Sim 1 1) (l : List (Sim.TestRecord 1)),
    60 - pre = i → i < limit → Like s Stage.full.bottom Stage.full.on →
    ∃ r, Sim.idleLoop sampleLibm 5 testConditionsUEF limit pre false s l = .ok r ∧
      Like r.1 Stage.full.bottom Stage.full.on := by
  intro i
  induction i with
  | zero =>
    intro limit pre s l hi hlim hl
    match limit, hlim with
    | limit + 1, _ =>
      rw [Sim.idleLoop, if_neg (by simp; omega)]
      exact ⟨_, rfl, hl⟩
  | succ i ih =>
    intro limit pre s l hi hlim hl
    match limit, hlim with
    | limit + 1, hlim =>
      rw [Sim.idleLoop, if_pos (.inl (by omega))]
      obtain ⟨s', h1, h2, -⟩ := Stage.step (g := .full) (g' := .full) (v := 0) rfl hl
      have hoff : decide (∃ i, (s'.st i).isOn = true) = false := by
        rw [decide_eq_false_iff_not]
        rintro ⟨j, hj⟩
        have := congrArg (fun x : Sim 1 1 => (x.st j).isOn) h2
        change (s'.st j).isOn = false at this
        rw [hj] at this
        cases this
      obtain ⟨r, h3, h4⟩ := ih limit (pre + 1) s' _ (by omega) (by omega) h2
      refine ⟨r, ?_, h4⟩
      rw [bind_ok_iff]
      exact ⟨s', h1, by rw [hoff]; exact h3⟩

theorem prep_returns (s : Sim 1 1) (hl : Like s Stage.full.bottom Stage.full.on) (limit : ℕ) :
    ∃ s', s.prepareForTest sampleLibm 5 (limit + 3) testConditionsUEF = .ok s' ∧
      Like s' Stage.full.bottom Stage.full.on := by
  have hflow : s.testFlow = galLitres (3 / 2) := by
    unfold Sim.testFlow
    rw [hl.volume, if_pos (by norm_num [GAL_TO_L, LPerGal])]
    rfl
  have hlim : ∀ (x : Sim 1 1) (b : ℚ) (f : Bool), Like x b f →
      x.limitDraw (galLitres (3 / 2)) true = galLitres (3 / 2) ∧ x.limitDraw (galLitres (3 / 2)) false = 0 := by
    intro x b f hx
    unfold Sim.limitDraw
    rw [hx.volume]
    decide +kernel
  obtain ⟨s1, a1, b1, -⟩ := Stage.step (g := .full) (g' := .prepared) (v := galLitres (3 / 2))
    (by decide +kernel) hl
  obtain ⟨s2, a2, b2, -⟩ := Stage.step (g := .prepared) (g' := .full) (v := 0) rfl b1
  obtain ⟨s3, a3, b3, -⟩ := Stage.step (g := .full) (g' := .full) (v := 0) rfl b2
  refine ⟨s3, ?_, b3⟩
  have i0 : s.isHeating = false := hl.isHeating
  have i1 : s1.isHeating = true := b1.isHeating
  have i2 : s2.isHeating = false := b2.isHeating
  unfold Sim.prepareForTest
  rw [hflow, Sim.prepLoop, i0]
  simp only [Sim.prepNext, Bool.not_false, if_true, (hlim s _ _ hl).1, Bool.false_eq_true, if_false]
  rw [a1]
  change Sim.prepLoop sampleLibm 5 testConditionsUEF (galLitres (3 / 2)) (limit + 2) s1 .drawing true = _
  rw [Sim.prepLoop, i1]
  simp only [Sim.prepNext, if_true, (hlim s1 _ _ b1).2, Bool.false_eq_true, if_false]
  rw [a2]
  change Sim.prepLoop sampleLibm 5 testConditionsUEF (galLitres (3 / 2)) (limit + 1) s2 .recovering false = _
  rw [Sim.prepLoop, i2]
  simp only [Sim.prepNext, Bool.not_false, if_true, (hlim s2 _ _ b2).2]
  rw [a3]
  rfl

theorem daySim_like (x : Sim 1 1) (h : daySim.applyTestSetpoint = .ok x) :
    Like x Stage.full.bottom Stage.full.on ∧ x = daySim := by
  have e : daySim.applyTestSetpoint = .ok daySim := by
    unfold Sim.applyTestSetpoint
    rw [if_pos (by decide +kernel)]
    unfold Sim.setSetpoint
    rw [if_pos (by decide +kernel)]
    rfl
  rw [e] at h
  obtain rfl := Except.ok.inj h
  refine ⟨?_, rfl⟩
  unfold Like Sim.setInletT Sim.resetOutputs dayState
  have e2 : daySim.tank.nodeTs = ![Stage.full.bottom, 155 / 3] := by decide +kernel
  congr 1
  congr 1
  dsimp only
  rw [e2]
  rfl

/-! ## The figures of this test -/

theorem day_states {S : ℕ → Sim 1 1} : ∀ (count t : ℕ) (g e : Stage),
    Like (S t) g.bottom g.on →
    dayEnd t count (scheduleAfter 60 (drawPatterns .verySmall) t) g = some e →
    (∀ i, t ≤ i → i < t + count → TestMinute sampleLibm 5 testConditionsUEF noSignal
      (prescribed 60 (drawPatterns .verySmall) i) (S i) (S (i + 1))) →
    Like (S (t + count)) e.bottom e.on ∧ ∀ i, t ≤ i → i < t + count →
      0 ≤ ((S (i + 1)).st 0).energyInput_kWh ∧
      (prescribed 60 (drawPatterns .verySmall) i ≠ 0 →
        (S (i + 1)).tank.outletT = 155 / 3 ∧ 0 < ((S (i + 1)).st 0).energyInput_kWh) := by
  intro count
  induction count with
  | zero =>
    intro t g e hl he _
    cases he
    exact ⟨hl, fun i h1 h2 => by omega⟩
  | succ count ih =>
    intro t g e hl he hS
    have hstep : ((scheduleAfter 60 (drawPatterns .verySmall) t).tick 60 t).step_L =
        prescribed 60 (drawPatterns .verySmall) t :=
      C51_schedule 60 (by norm_num) _ (C50_patterns .verySmall).1 t
    rw [dayEnd] at he
    cases hg : g.next ((scheduleAfter 60 (drawPatterns .verySmall) t).tick 60 t).step_L with
    | none => rw [hg] at he; cases he
    | some g' =>
      rw [hg] at he
      rw [hstep] at hg
      obtain ⟨s', h1, h2, h3⟩ := Stage.step hg hl
      have hs' : s' = S (t + 1) := by
        have := hS t le_rfl (by omega)
        rw [← testStep_iff] at this
        exact Except.ok.inj (h1.symm.trans this)
      subst hs'
      obtain ⟨i1, i2⟩ := ih (t + 1) g' e h2 he fun i a b => hS i (by omega) (by omega)
      refine ⟨by rw [show t + (count + 1) = t + 1 + count by omega]; exact i1, fun i a b => ?_⟩
      rcases Nat.eq_or_lt_of_le a with rfl | a
      · exact h3
      · exact i2 i a (by omega)

theorem Like.averageT {s : Sim 1 1} {f : Bool} (h : Like s (155 / 3) f) : s.averageT = 155 / 3 := by
  have e : s.tank.nodeTs = ![155 / 3, 155 / 3] := congrArg (fun x : Sim 1 1 => x.tank.nodeTs) h
  unfold Sim.averageT
  rw [e, Fin.sum_univ_two]
  norm_num

theorem day_prev {m : Libm} {fuel : ℕ} {c : TestConditions} {n k : ℕ} {T0 : ℚ} :
    ∀ (count t : ℕ) (d d' : Sim.Day n k), Sim.Day.loop m fuel c T0 t count d = .ok d' →
    d.phases.prevTankT = d.sim.averageT → d'.phases.prevTankT = d'.sim.averageT := by
  intro count
  induction count with
  | zero => intro t d d' h e; obtain rfl := Except.ok.inj h; exact e
  | succ count ih =>
    intro t d d' h e
    rw [Sim.Day.loop, bind_ok_iff] at h
    obtain ⟨d1, h1, h⟩ := h
    rw [Sim.Day.minute, bind_ok_iff] at h1
    obtain ⟨s1, h1, e1⟩ := h1
    obtain rfl := Except.ok.inj e1
    exact ih _ _ _ h rfl

/-- The temperature of the surroundings summed over the minutes without draw. -/
theorem day_ambient {n k : ℕ} {m : Libm} {fuel : ℕ} {c : TestConditions} {P : Sim n k → Prop} (hP : Kept m fuel c P) {V : ℚ}
    (hV : 0 < V) {pattern : List Draw} (hs : Sensible pattern) (T0 : ℚ) (count t : ℕ) (d d' : Sim.Day n k) (hd : P d.sim)
    (hv : d.sim.tank.volume_L = V) (hq : d.schedule = scheduleAfter V pattern t)
    (h : Sim.Day.loop m fuel c T0 t count d = .ok d') (h0 : d.sums = ⟨0, 0, 0, 0, 0, false, 0, 0⟩) :
    d'.sums.noDrawAmbientT = d'.sums.noDraw_min * c.ambientT := by
  obtain ⟨S, -, -, -, -, -, -, -, -, -, -, -, -, b7, b8, -⟩ := day_loop hP hV hs T0 count t d d' hd hv hq h
  rw [b8, b7, h0]
  push_cast
  ring

/-- The 24-hour test of this water heater returns, with a positive energy factor. -/
theorem daySim_returns : ∃ s' r,
    daySim.run24hrTest sampleLibm 5 100 testConditionsUEF .verySmall = .ok (s', r) ∧ 0 < r.EF := by
  have e : ∃ x, daySim.applyTestSetpoint = .ok x := by
    unfold Sim.applyTestSetpoint
    rw [if_pos (by decide +kernel)]
    unfold Sim.setSetpoint
    rw [if_pos (by decide +kernel)]
    exact ⟨_, rfl⟩
  obtain ⟨x, hx⟩ := e
  obtain ⟨hl, rfl⟩ := daySim_like x hx
  obtain ⟨s2, h2, l2⟩ := prep_returns daySim hl 97
  obtain ⟨r, h3, l3⟩ := idle_returns 60 100 0 s2 [] rfl (by norm_num) l2
  obtain ⟨d, h4⟩ := day_returns 1441 0 (Sim.Day.init .verySmall r.1
    (r.2.2.map fun x => { x with time_min := x.time_min - r.2.1 })) .full r.1.averageT l3 dayRun_accepts
  have hu : Usable r.1 := by
    have u2 := (prep_keeps (usable_kept sampleLibm 5 testConditionsUEF) _ (by decide +kernel)
      _ _ _ _ _ daySim_usable h2).1
    exact (idle_keeps (usable_kept sampleLibm 5 testConditionsUEF) _ _ _ _ _ _ u2 h3).1
  obtain ⟨S, a0, a1, a2, -, a4, -, b1, -, -, b4, b5, -⟩ := day_loop (usable_kept sampleLibm 5 testConditionsUEF)
    (V := 60) (by norm_num) (C50_patterns .verySmall).1 r.1.averageT 1441 0 _ d hu l3.volume rfl h4
  have hrem : d.sums.removed_L = galLitres 10 := by
    rw [b1]
    have e1 := (C51_standard_patterns 60 (by norm_num [galLitres]) .verySmall).2
    rw [Finset.sum_congr rfl fun t _ => C51_schedule 60 (by norm_num) _ (C50_patterns .verySmall).1 t] at e1
    simp only [Nat.zero_add]
    rw [e1]
    norm_num [Sim.Day.init, galLitres, nominalGallons]
  have hne : d.sums.removed_L ≠ 0 := by rw [hrem]; norm_num [galLitres]
  simp only [Nat.zero_add] at a2 b1 b4 b5
  obtain ⟨hend, hall⟩ := day_states 1441 0 .full .full (S := S) (by rw [a0]; exact l3) dayEnd_full
    fun i _ hi => (a2 i (by omega)).2.2
  rw [Nat.zero_add] at hend
  have hall := fun i (hi : i < 1441) => hall i (by omega) (by omega)
  have havg : d.phases.prevTankT = r.1.averageT := by
    rw [day_prev _ _ _ _ h4 rfl, ← a1, hend.averageT, l3.averageT]
  have hused0 : 0 ≤ ∑ t ∈ Finset.range 1441, 3600 * ∑ j, ((S (t + 1)).st j).energyInput_kWh := by
    refine Finset.sum_nonneg fun i hi => ?_
    rw [Finset.mem_range] at hi
    rw [Fin.sum_univ_one]
    have := (hall i hi).1
    linarith
  have hused : 0 < ∑ t ∈ Finset.range 1441, 3600 * ∑ j, ((S (t + 1)).st j).energyInput_kWh := by
    refine Finset.sum_pos' (fun i hi => ?_) ⟨0, by simp, ?_⟩
    · rw [Finset.mem_range] at hi
      rw [Fin.sum_univ_one]
      have := (hall i hi).1
      linarith
    · rw [Fin.sum_univ_one]
      have := ((hall 0 (by norm_num)).2 (by decide +kernel)).2
      linarith
  have hdel : ∑ t ∈ Finset.range 1441, waterHeat (prescribed 60 (drawPatterns .verySmall) t)
      ((S (t + 1)).tank.outletT - testConditionsUEF.inletT) =
      waterHeat (galLitres 10) (67 * (5 / 9)) := by
    have e1 : ∀ t ∈ Finset.range 1441, waterHeat (prescribed 60 (drawPatterns .verySmall) t)
        ((S (t + 1)).tank.outletT - testConditionsUEF.inletT) =
        4180 / 1000 * (995 / 1000) * (67 * (5 / 9)) * prescribed 60 (drawPatterns .verySmall) t := by
      intro t ht
      rw [Finset.mem_range] at ht
      unfold waterHeat
      by_cases hz : prescribed 60 (drawPatterns .verySmall) t = 0
      · rw [hz]; ring
      · rw [((hall t ht).2 hz).1]
        norm_num [testConditionsUEF, F_TO_C, offsetF, FperC]
        ring
    rw [Finset.sum_congr rfl e1, ← Finset.mul_sum]
    have e2 : ∑ t ∈ Finset.range 1441, prescribed 60 (drawPatterns .verySmall) t = galLitres 10 := by
      rw [← hrem, b1]; simp [Sim.Day.init]
    rw [e2]
    unfold waterHeat
    ring
  have hz0 : (Sim.Day.init .verySmall r.1
      (r.2.2.map fun x => { x with time_min := x.time_min - r.2.1 })).sums = ⟨0, 0, 0, 0, 0, false, 0, 0⟩ :=
    rfl
  rw [hz0] at b4 b5
  simp only [zero_add] at b4 b5
  have hb : d.sums.noDrawAmbientT = d.sums.noDraw_min * testConditionsUEF.ambientT :=
    day_ambient (usable_kept sampleLibm 5 testConditionsUEF) (V := 60) (by norm_num) (C50_patterns .verySmall).1
      r.1.averageT 1441 0 _ d hu l3.volume rfl h4 hz0
  have hfin : Sim.summarize .verySmall r.1.averageT d d.records =
      .ok (Sim.summaryOf .verySmall r.1.averageT d d.records) := by rw [Sim.summarize, if_neg hne]
  obtain ⟨-, -, q2, q3, q4, -, -, -, q8, q9, -, -, q12, q12', q13, -⟩ := summarize_ok hfin
  refine ⟨d.sim, Sim.summaryOf .verySmall r.1.averageT d d.records, ?_, ?_⟩
  rotate_left
  · generalize Sim.summaryOf .verySmall r.1.averageT d d.records = R at *
    have hmod : 0 < R.modifiedConsumed_kJ := by
      have hloss : ((135 / 2 - 32) * (5 / 9) - R.noDrawAverageAmbientT) * R.standbyLossCoefficient *
          R.noDrawTotalTime_h = 0 := by
        rw [q9, q8]
        by_cases h0 : d.sums.noDraw_min = 0
        · rw [h0]; norm_num
        · rw [if_pos (Nat.pos_of_ne_zero h0), hb, mul_div_cancel_left₀ _ (by exact_mod_cast h0)]
          norm_num [testConditionsUEF, F_TO_C, offsetF, FperC]
      rcases lt_or_ge 0 R.recoveryEfficiency with he | he
      · rw [q12 he, hloss, havg, q2, q3, q4, b5, b4, hdel, hrem]
        have : 0 < (waterHeat (galLitres 10) (75 * (5 / 9)) - waterHeat (galLitres 10) (67 * (5 / 9))) /
            R.recoveryEfficiency := div_pos (by norm_num [waterHeat, galLitres]) he
        have h3 : waterHeat d.sim.tank.volume_L (r.1.averageT - r.1.averageT) = 0 := by
          unfold waterHeat; ring
        rw [h3, zero_div]
        linarith
      · rw [q12' he, hloss, q3, b5]
        linarith
    rw [q13, if_pos hmod, q2, hrem]
    exact div_pos (by norm_num [waterHeat, galLitres]) hmod
  unfold Sim.run24hrTest
  rw [bind_ok_iff]
  refine ⟨daySim, hx, ?_⟩
  rw [bind_ok_iff]
  refine ⟨s2, h2, ?_⟩
  rw [bind_ok_iff]
  refine ⟨r, h3, ?_⟩
  simp only
  rw [bind_ok_iff]
  refine ⟨d, h4, ?_⟩
  rw [bind_ok_iff]
  exact ⟨_, hfin, rfl⟩

theorem daySim_accountable : daySim.AlwaysAccountable where
  nodes := by norm_num
  volume := by decide +kernel
  nodeVolume := by decide +kernel
  nodeCp := by decide +kernel
  inlet := by decide +kernel
  inlet2 := by decide +kernel
  mixBelow := by decide +kernel
  mixing := rfl
  effectiveness h := by cases h
  step := by decide +kernel
  absolute := by decide +kernel
  sound := by
    intro i air lo
    refine ⟨fun p hp => ?_, fun c hc => ?_, fun c hc => ?_, fun c hc => ?_⟩
    · have : (9 : ℚ) = p := by injection hp
      rw [← this]
      exact ⟨by norm_num, sampleDist_proper⟩
    all_goals cases hc

/-- The hypotheses of the theorems on the test are met by this water heater. -/
example : (∀ s1, daySim.applyTestSetpoint = .ok s1 → Usable s1 ∧ s1.AlwaysAccountable) ∧
    (∃ s', daySim.prepareForTest sampleLibm 5 100 testConditionsUEF = .ok s') ∧
    ∃ s' r, daySim.run24hrTest sampleLibm 5 100 testConditionsUEF .verySmall = .ok (s', r) ∧
      r.removed_L = galLitres 10 ∧ 0 < r.EF := by
  refine ⟨fun s1 h => ?_, ?_, ?_⟩
  · rw [(daySim_like s1 h).2]
    exact ⟨daySim_usable, daySim_accountable⟩
  · have e : ∃ x, daySim.applyTestSetpoint = .ok x := by
      unfold Sim.applyTestSetpoint
      rw [if_pos (by decide +kernel)]
      unfold Sim.setSetpoint
      rw [if_pos (by decide +kernel)]
      exact ⟨_, rfl⟩
    obtain ⟨x, hx⟩ := e
    obtain ⟨hl, rfl⟩ := daySim_like x hx
    obtain ⟨s', h, -⟩ := prep_returns daySim hl 97
    exact ⟨s', h⟩
  · obtain ⟨s', r, h, hEF⟩ := daySim_returns
    refine ⟨s', r, h, C64_nominal_volume _ _ _ _ _ _ _ _ (fun s1 h => ?_) (by decide +kernel) h, hEF⟩
    rw [(daySim_like s1 h).2]
    exact daySim_usable

end HPWH
