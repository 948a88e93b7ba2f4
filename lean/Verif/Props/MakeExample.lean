import Verif.Props.Make

/-! # A heat pump that `make` fits

A heat pump of about 12 kW is fitted to the energy factor it has already. After every minute of the tests it is full and
off, but for one minute of the preparation. -/

namespace HPWH

open Spec _root_.HPWH.Units

/-- Input of 4 kW and a COP of 3 whatever the temperatures. -/
def pumpPolys : PolySet :=
  [⟨50, [4000, 0, 0], [3, 0, 0]⟩, ⟨135 / 2, [4000, 0, 0], [3, 0, 0]⟩, ⟨95, [4000, 0, 0], [3, 0, 0]⟩]

/-- The water heater of `dayState` with a heat pump in place of the element. -/
def pumpBase (b : ℚ) (f : Bool) : Sim 1 1 :=
  { dayState b f with
    cfg := { daySim.cfg with
      src := fun j => { daySim.cfg.src j with kind := .condenser sampleCond }
      compressorIndex := some 0, lowestElementIndex := none } }

/-- The same with performance from polynomials and the inlet temperature of a test. -/
def pumpState (c : TestConditions) (ps : PolySet) (b : ℚ) (f : Bool) : Sim 1 1 :=
  ((pumpBase b f).withPolys 0 ps).setInletT c.inletT

/-- The same state up to outputs and the inlet temperature. -/
def PumpLike (c : TestConditions) (ps : PolySet) (s : Sim 1 1) (b : ℚ) (f : Bool) : Prop :=
  (s.setInletT c.inletT).resetOutputs = pumpState c ps b f

theorem PumpLike.step {c : TestConditions} {ps : PolySet} {s : Sim 1 1} {b : ℚ} {f : Bool} (h : PumpLike c ps s b f) (dr : DR) (v : ℚ) :
    s.testStep sampleLibm 5 c dr v = (pumpState c ps b f).testStep sampleLibm 5 c dr v := by
  unfold Sim.testStep
  rw [runOneStep_reset, h]
  rfl

theorem PumpLike.isHeating {c : TestConditions} {ps : PolySet} {s : Sim 1 1} {b : ℚ} {f : Bool} (h : PumpLike c ps s b f) : s.isHeating = f :=
  congrArg Sim.isHeating h

theorem PumpLike.volume {c : TestConditions} {ps : PolySet} {s : Sim 1 1} {b : ℚ} {f : Bool} (h : PumpLike c ps s b f) : s.tank.volume_L = 60 :=
  congrArg (fun x : Sim 1 1 => x.tank.volume_L) h

theorem PumpLike.refl (c : TestConditions) (ps : PolySet) (b : ℚ) (f : Bool) : PumpLike c ps (pumpState c ps b f) b f := rfl

theorem withPolys_withPolys {n k : ℕ} (s : Sim n k) (i : Fin k) (ps qs : PolySet) :
    (s.withPolys i ps).withPolys i qs = s.withPolys i qs := by
  cases hk : (s.cfg.src i).kind with
  | resistance P =>
    have e : s.withPolys i ps = s := by unfold Sim.withPolys; rw [hk]
    rw [e]
  | condenser b =>
    have e : ∀ rs : PolySet, s.withPolys i rs = { s with
        cfg := { s.cfg with src := Function.update s.cfg.src i { s.cfg.src i with
          kind := .condenser { b with evaluate := rs.make } } } } := by
      intro rs; unfold Sim.withPolys; rw [hk]
    rw [e, e]
    unfold Sim.withPolys
    simp only [Function.update_self, Function.update_idem]

/-- Other polynomials do not change the state otherwise. -/
theorem PumpLike.withPolys {c : TestConditions} {ps : PolySet} {s : Sim 1 1} {b : ℚ} {f : Bool} (h : PumpLike c ps s b f)
    (c' : TestConditions) (qs : PolySet) : PumpLike c' qs (s.withPolys 0 qs) b f := by
  have e : ((s.withPolys 0 qs).setInletT c'.inletT).resetOutputs =
      (((s.setInletT c.inletT).resetOutputs).withPolys 0 qs).setInletT c'.inletT := by
    have c : ((s.setInletT c.inletT).resetOutputs).cfg = s.cfg := rfl
    unfold Sim.withPolys
    rw [c]
    cases (s.cfg.src 0).kind <;> rfl
  have e' : (pumpState c ps b f).withPolys 0 qs = (((pumpBase b f).withPolys 0 ps).withPolys 0 qs).setInletT c.inletT := rfl
  unfold PumpLike
  rw [e, h, e', withPolys_withPolys]
  rfl

theorem pumpState_usable (c : TestConditions) (ps : PolySet) (b : ℚ) (f : Bool) : Usable (pumpState c ps b f) :=
  ⟨daySim_usable.1.of_cfg rfl, daySim_usable.2⟩

/-- What is to be computed of a minute. -/
def PumpLeads (c : TestConditions) (ps : PolySet) (v b : ℚ) (f : Bool) (b' : ℚ) (f' : Bool) : Prop :=
  ∃ s', (pumpState c ps b f).testStep sampleLibm 5 c noSignal v = .ok s' ∧
    s'.tank.nodeTs 0 = b' ∧ s'.tank.nodeTs 1 = 155 / 3 ∧ s'.isHeating = f' ∧ (s'.st 0).isOn = f' ∧
    (s'.st 0).lockedOut = false ∧ s'.soc = 0 ∧ s'.locationT = -500 ∧ s'.timerTOT = 0

instance (c : TestConditions) (ps : PolySet) (v b : ℚ) (f : Bool) (b' : ℚ) (f' : Bool) : Decidable (PumpLeads c ps v b f b' f') := by
  unfold PumpLeads; infer_instance

theorem PumpLike.next {c : TestConditions} {ps : PolySet} {s : Sim 1 1} {v b : ℚ} {f : Bool} {b' : ℚ} {f' : Bool} (hv : 0 ≤ v)
    (h : PumpLike c ps s b f) (hl : PumpLeads c ps v b f b' f') :
    ∃ s', s.testStep sampleLibm 5 c noSignal v = .ok s' ∧ PumpLike c ps s' b' f' := by
  obtain ⟨s', e, h1, h2, h3, h4, h5, h6, h7, h8⟩ := hl
  refine ⟨s', (h.step _ _).trans e, ?_⟩
  obtain ⟨g1, g2, g3, g4, g5, g6⟩ := testMinute_same (pumpState_usable c ps b f) hv (testStep_iff.mp e)
  have e1 : s'.tank.nodeTs = ![b', 155 / 3] := by
    funext i
    match i with
    | 0 => exact h1
    | 1 => exact h2
  have e2 : (fun i => ({ s'.st i with runtime_min := 0, energyInput_kWh := 0, energyOutput_kWh := 0 } :
      SourceState)) = fun _ => ⟨f', false, 0, 0, 0⟩ := by
    funext i
    obtain rfl : i = 0 := Subsingleton.elim _ _
    dsimp only
    rw [h4, h5]
  unfold PumpLike Sim.setInletT Sim.resetOutputs
  simp only [e2, g2, g3, g6, h3, h6, h7, h8]
  unfold pumpState pumpBase dayState Sim.withPolys
  simp only
  congr 1
  congr 1
  · rw [g1, e1]
    rfl

/-- All minutes the tests consist of. -/
structure PumpMinutes (c : TestConditions) (ps : PolySet) (p : ℚ) : Prop where
  idle : PumpLeads c ps 0 (155 / 3) false (155 / 3) false
  half : PumpLeads c ps (galLitres (1 / 2)) (155 / 3) false (155 / 3) false
  one : PumpLeads c ps (galLitres 1) (155 / 3) false (155 / 3) false
  prepare : PumpLeads c ps (galLitres (3 / 2)) (155 / 3) false p true
  recover : PumpLeads c ps 0 p true (155 / 3) false

theorem pump_minutes : PumpMinutes testConditionsUEF pumpPolys (7545084785023 / 149727600000) := by
  constructor <;> decide +kernel

theorem pump_minutes' : PumpMinutes testConditionsUEF (pumpPolys.setCop0 1 (3 + 1 / 10 ^ 9)) (7545084785311 / 149727600000) := by
  constructor <;> decide +kernel

/-- Whether there is no draw but of ½ or 1 gallon. -/
def smallDraws : (t count : ℕ) → Sim.Schedule → Bool
  | _, 0, _ => true
  | t, count + 1, q =>
    decide ((q.tick 60 t).step_L ∈ [0, galLitres (1 / 2), galLitres 1]) && smallDraws (t + 1) count (q.tick 60 t)

theorem smallDraws_day : smallDraws 0 1441 (Sim.Schedule.init (drawPatterns .verySmall)) = true := by decide +kernel

theorem PumpMinutes.small {c : TestConditions} {ps : PolySet} {p : ℚ} (hm : PumpMinutes c ps p) {v : ℚ} (hv : v ∈ [0, galLitres (1 / 2), galLitres 1])
    {s : Sim 1 1} (hs : PumpLike c ps s (155 / 3) false) :
    ∃ s', s.testStep sampleLibm 5 c noSignal v = .ok s' ∧ PumpLike c ps s' (155 / 3) false := by
  simp only [List.mem_cons, List.not_mem_nil, or_false] at hv
  rcases hv with rfl | rfl | rfl
  · exact hs.next le_rfl hm.idle
  · exact hs.next (by decide +kernel) hm.half
  · exact hs.next (by decide +kernel) hm.one

theorem pump_day {c : TestConditions} {ps : PolySet} {p : ℚ} (hm : PumpMinutes c ps p) : ∀ (count t : ℕ) (d : Sim.Day 1 1) (T0 : ℚ),
    PumpLike c ps d.sim (155 / 3) false → smallDraws t count d.schedule = true →
    ∃ d', Sim.Day.loop sampleLibm 5 c T0 t count d = .ok d' ∧ PumpLike c ps d'.sim (155 / 3) false := by
  intro count
  induction count with
  | zero => intro t d T0 hl _; exact ⟨d, rfl, hl⟩
  | succ count ih =>
    intro t d T0 hl hr
    rw [smallDraws, Bool.and_eq_true, decide_eq_true_eq] at hr
    obtain ⟨s', h1, h2⟩ := hm.small hr.1 hl
    have hq : ∀ u : ℚ, (d.schedule.start d.sim.tank.volume_L u).limit = d.schedule.tick 60 u := by
      intro u; rw [hl.volume]; rfl
    obtain ⟨d', h3, h4⟩ := ih (t + 1) ⟨s', d.schedule.tick 60 t,
      d.sums.add s' c (d.schedule.start d.sim.tank.volume_L t).isDrawing
        (d.schedule.tick 60 t).step_L,
      d.phases.next s' c T0 t (d.schedule.tick 60 t).step_L
        (0 + ∑ i, KWH_TO_KJ (s'.st i).energyInput_kWh) (d.schedule.tick 60 t).isDrawing
        (d.sums.add s' c (d.schedule.start d.sim.tank.volume_L t).isDrawing
          (d.schedule.tick 60 t).step_L).hasHeated,
      d.records ++ [⟨t, c.inletT, (d.schedule.tick 60 t).step_L, s'.tank.outletT,
        fun i => (s'.st i).energyInput_kWh, fun i => (s'.st i).energyOutput_kWh, c.ambientT,
        s'.setpoint, s'.thermocouples⟩]⟩ T0 h2 hr.2
    refine ⟨d', ?_, h4⟩
    rw [Sim.Day.loop, bind_ok_iff]
    refine ⟨_, ?_, h3⟩
    rw [Sim.Day.minute, bind_ok_iff]
    refine ⟨s', by rw [hq]; exact h1, ?_⟩
    simp only [hq]

theorem pump_idle {c : TestConditions} {ps : PolySet} {p : ℚ} (hm : PumpMinutes c ps p) : ∀ (i limit pre : ℕ) (s : Sim 1 1) (l : List (Sim.TestRecord 1)),
    60 - pre = i → i < limit → PumpLike c ps s (155 / 3) false →
    ∃ r, Sim.idleLoop sampleLibm 5 c limit pre false s l = .ok r ∧ PumpLike c ps r.1 (155 / 3) false := by
  intro i
  induction i with
  | zero =>
    intro limit pre s l hi hlim hl
    match limit, hlim with
    | limit + 1, _ =>
      rw [Sim.idleLoop, if_neg (by simp; omega)]
      exact ⟨_, rfl, hl⟩
  | succ i ih =>
    intro limit pre s l hi hlim hl
    match limit, hlim with
    | limit + 1, hlim =>
      rw [Sim.idleLoop, if_pos (.inl (by omega))]
      obtain ⟨s', h1, h2⟩ := hl.next le_rfl hm.idle
      have hoff : decide (∃ i, (s'.st i).isOn = true) = false := by
        rw [decide_eq_false_iff_not]
        rintro ⟨j, hj⟩
        have := congrArg (fun x : Sim 1 1 => (x.st j).isOn) h2
        change (s'.st j).isOn = false at this
        rw [hj] at this
        cases this
      obtain ⟨r, h3, h4⟩ := ih limit (pre + 1) s' _ (by omega) (by omega) h2
      refine ⟨r, ?_, h4⟩
      rw [bind_ok_iff]
      exact ⟨s', h1, by rw [hoff]; exact h3⟩

theorem PumpLike.flow {c : TestConditions} {ps : PolySet} {s : Sim 1 1} {b : ℚ} {f : Bool} (hl : PumpLike c ps s b f) :
    s.testFlow = galLitres (3 / 2) := by
  unfold Sim.testFlow
  rw [hl.volume, if_pos (by norm_num [GAL_TO_L, LPerGal])]
  rfl

theorem PumpLike.limit {c : TestConditions} {ps : PolySet} {s : Sim 1 1} {b : ℚ} {f : Bool} (hl : PumpLike c ps s b f) :
    s.limitDraw (galLitres (3 / 2)) true = galLitres (3 / 2) ∧ s.limitDraw (galLitres (3 / 2)) false = 0 := by
  unfold Sim.limitDraw
  rw [hl.volume]
  decide +kernel

theorem pump_prep {c : TestConditions} {ps : PolySet} {p : ℚ} (hm : PumpMinutes c ps p) (s : Sim 1 1) (hl : PumpLike c ps s (155 / 3) false) (limit : ℕ) :
    ∃ s', s.prepareForTest sampleLibm 5 (limit + 3) c = .ok s' ∧ PumpLike c ps s' (155 / 3) false := by
  obtain ⟨s1, a1, b1⟩ := hl.next (by decide +kernel) hm.prepare
  obtain ⟨s2, a2, b2⟩ := b1.next le_rfl hm.recover
  obtain ⟨s3, a3, b3⟩ := b2.next le_rfl hm.idle
  refine ⟨s3, ?_, b3⟩
  have i0 : s.isHeating = false := hl.isHeating
  have i1 : s1.isHeating = true := b1.isHeating
  have i2 : s2.isHeating = false := b2.isHeating
  unfold Sim.prepareForTest
  rw [hl.flow, Sim.prepLoop, i0]
  simp only [Sim.prepNext, Bool.not_false, if_true, hl.limit.1, Bool.false_eq_true, if_false]
  change (s.testStep sampleLibm 5 c noSignal _ >>= _) = _
  rw [a1]
  change Sim.prepLoop sampleLibm 5 c (galLitres (3 / 2)) (limit + 2) s1 .drawing true = _
  rw [Sim.prepLoop, i1]
  simp only [Sim.prepNext, if_true, b1.limit.2, Bool.false_eq_true, if_false]
  change (s1.testStep sampleLibm 5 c noSignal _ >>= _) = _
  rw [a2]
  change Sim.prepLoop sampleLibm 5 c (galLitres (3 / 2)) (limit + 1) s2 .recovering false = _
  rw [Sim.prepLoop, i2]
  simp only [Sim.prepNext, Bool.not_false, if_true, b2.limit.2]
  change (s2.testStep sampleLibm 5 c noSignal _ >>= _) = _
  rw [a3]
  rfl

theorem pump_setpoint {c : TestConditions} {ps : PolySet} {s : Sim 1 1} (hl : PumpLike c ps s (155 / 3) false) : s.applyTestSetpoint = .ok s := by
  have h1 : s.newSetpointPossible testSetpoint = (pumpState c ps (155 / 3) false).newSetpointPossible testSetpoint := by
    rw [← hl]; rfl
  have h2 : (pumpState c ps (155 / 3) false).newSetpointPossible testSetpoint =
      (pumpBase (155 / 3) false).newSetpointPossible testSetpoint := rfl
  have h3 : (pumpBase (155 / 3) false).newSetpointPossible testSetpoint = true := by decide +kernel
  have h4 : s.setpoint = testSetpoint := by
    have := congrArg (fun x : Sim 1 1 => x.setpoint) hl
    exact this
  unfold Sim.applyTestSetpoint
  rw [if_pos (by rw [h1, h2, h3])]
  unfold Sim.setSetpoint
  rw [if_pos (by rw [h1, h2, h3])]
  rw [← h4]

/-- The test of this heater depends on nothing its state keeps from earlier tests. -/
theorem pump_same {c : TestConditions} {ps : PolySet} {s : Sim 1 1} (hl : PumpLike c ps s (155 / 3) false) :
    s.run24hrTest sampleLibm 5 100 c .verySmall =
      (pumpState c ps (155 / 3) false).run24hrTest sampleLibm 5 100 c .verySmall := by
  unfold Sim.run24hrTest
  rw [pump_setpoint hl, pump_setpoint (PumpLike.refl c ps _ _)]
  have e : ∀ y : Sim 1 1, PumpLike c ps y (155 / 3) false → y.prepareForTest sampleLibm 5 100 c =
      ((pumpState c ps (155 / 3) false).testStep sampleLibm 5 c Sim.drAllow (galLitres (3 / 2)) >>= fun s1 =>
        Sim.prepLoop sampleLibm 5 c (galLitres (3 / 2)) 99 s1 .drawing true) := by
    intro y hy
    unfold Sim.prepareForTest
    rw [hy.flow, Sim.prepLoop, hy.isHeating]
    simp only [Sim.prepNext, Bool.not_false, if_true, hy.limit.1, Bool.false_eq_true, if_false]
    rw [hy.step]
  change (s.prepareForTest sampleLibm 5 100 c >>= _) =
    ((pumpState c ps (155 / 3) false).prepareForTest sampleLibm 5 100 c >>= _)
  rw [e s hl, e _ (PumpLike.refl c ps _ _)]

theorem pump_test {c : TestConditions} {ps : PolySet} {p : ℚ} (hm : PumpMinutes c ps p) : ∃ s' r,
    (∀ s, PumpLike c ps s (155 / 3) false → s.run24hrTest sampleLibm 5 100 c .verySmall = .ok (s', r)) ∧
    PumpLike c ps s' (155 / 3) false := by
  have hl := PumpLike.refl c ps (155 / 3) false
  obtain ⟨s2, h2, l2⟩ := pump_prep hm _ hl 97
  obtain ⟨r, h3, l3⟩ := pump_idle hm 60 100 0 s2 [] rfl (by norm_num) l2
  obtain ⟨d, h4, l4⟩ := pump_day hm 1441 0 (Sim.Day.init .verySmall r.1
    (r.2.2.map fun x => { x with time_min := x.time_min - r.2.1 })) r.1.averageT l3 smallDraws_day
  have hu : Usable r.1 := by
    have u2 := (prep_keeps (usable_kept sampleLibm 5 c) _ (by rw [hl.flow]; decide +kernel)
      _ _ _ _ _ (pumpState_usable c ps _ _) h2).1
    exact (idle_keeps (usable_kept sampleLibm 5 c) _ _ _ _ _ _ u2 h3).1
  obtain ⟨S, -, -, -, -, -, -, b1, -⟩ := day_loop (usable_kept sampleLibm 5 c)
    (V := 60) (by norm_num) (C50_patterns .verySmall).1 r.1.averageT 1441 0 _ d hu l3.volume rfl h4
  have hrem : d.sums.removed_L = galLitres 10 := by
    rw [b1]
    have e1 := (C51_standard_patterns 60 (by norm_num [galLitres]) .verySmall).2
    rw [Finset.sum_congr rfl fun t _ => C51_schedule 60 (by norm_num) _ (C50_patterns .verySmall).1 t] at e1
    simp only [Nat.zero_add]
    rw [e1]
    norm_num [Sim.Day.init, galLitres, nominalGallons]
  have hne : d.sums.removed_L ≠ 0 := by rw [hrem]; norm_num [galLitres]
  have hfin : Sim.summarize .verySmall r.1.averageT d d.records =
      .ok (Sim.summaryOf .verySmall r.1.averageT d d.records) := by rw [Sim.summarize, if_neg hne]
  refine ⟨d.sim, Sim.summaryOf .verySmall r.1.averageT d d.records, fun s hs => ?_, l4⟩
  rw [pump_same hs]
  unfold Sim.run24hrTest
  rw [bind_ok_iff]
  refine ⟨_, pump_setpoint hl, ?_⟩
  rw [bind_ok_iff]
  refine ⟨s2, h2, ?_⟩
  rw [bind_ok_iff]
  refine ⟨r, h3, ?_⟩
  simp only
  rw [bind_ok_iff]
  refine ⟨d, h4, ?_⟩
  rw [bind_ok_iff]
  exact ⟨_, hfin, rfl⟩

theorem fit_at_target {σ : Type} {metric : Fit.Metric σ} {t v step x0 : ℚ} {s s1 s2 s3 : σ}
    (h0 : metric x0 s = .ok (t, s1)) (h1 : metric (x0 + step) s1 = .ok (v, s2)) (h2 : metric x0 s2 = .ok (t, s3)) :
    ∃ s', Fit.fitOne metric t step x0 s = .ok (x0, s') ∧ (s' = s2 ∨ s' = s3) := by
  have hm : t ≤ t + 1 / 10 ^ 12 ∧ t ≥ t - 1 / 10 ^ 12 := by constructor <;> norm_num
  by_cases hd : t = Fit.dblMin
  · refine ⟨s3, ?_, .inr rfl⟩
    unfold Fit.fitOne Fit.secant
    simp only [h0, h1, bind, Except.bind, if_pos hd, h2, if_pos (by norm_num : (1 / 10 ^ 12 : ℚ) ≥ 0), if_pos hm]
    rfl
  · refine ⟨s2, ?_, .inl rfl⟩
    unfold Fit.fitOne Fit.secant
    simp only [h0, h1, bind, Except.bind, if_neg hd, if_pos (by norm_num : (1 / 10 ^ 12 : ℚ) ≥ 0), if_pos hm]
    rfl

theorem pumpPolys_proper : ProperPolys pumpPolys := ⟨by decide +kernel, by decide +kernel, by decide +kernel⟩

/-- Full and off. -/
def Pumped (s : Sim 1 1) : Prop := ∃ c ps, PumpLike c ps s (155 / 3) false

theorem pump_efTest {c : TestConditions} {ps : PolySet} {p : ℚ} (hm : PumpMinutes c ps p) : ∃ s' r,
    (∀ s, Pumped s → Sim.efTest sampleLibm 5 100 c .verySmall 0 ps s = .ok (r.EF, s')) ∧
    (∀ s, PumpLike c ps s (155 / 3) false → s.run24hrTest sampleLibm 5 100 c .verySmall = .ok (s', r)) ∧
    PumpLike c ps s' (155 / 3) false := by
  obtain ⟨a, r, ha, la⟩ := pump_test hm
  refine ⟨a, r, fun s hs => ?_, ha, la⟩
  obtain ⟨c', ps', hs⟩ := hs
  unfold Sim.efTest
  rw [bind_ok_iff]
  exact ⟨(a, r), ha _ (hs.withPolys c ps), rfl⟩

/-- The heat pump stays as it is when fitted to the energy factor it has. -/
theorem pump_fitOne {c : TestConditions} {j : ℕ} {p p' : ℚ} (e : pumpPolys.setCop0 j 3 = pumpPolys)
    (h : PumpMinutes c pumpPolys p) (h' : PumpMinutes c (pumpPolys.setCop0 j (3 + 1 / 10 ^ 9)) p') :
    ∃ target, ∀ s, Pumped s → ∃ s', Fit.fitOne (fun x s => Sim.efTest sampleLibm 5 100 c .verySmall 0
      (pumpPolys.setCop0 j x) s) target (1 / 10 ^ 9) 3 s = .ok (3, s') ∧ Pumped s' ∧
      ∃ a r, (s'.withPolys 0 pumpPolys).run24hrTest sampleLibm 5 100 c .verySmall = .ok (a, r) ∧ r.EF = target := by
  obtain ⟨a, r, m3, ha, la⟩ := pump_efTest h
  obtain ⟨b, q, m4, hb, lb⟩ := pump_efTest h'
  refine ⟨r.EF, fun s hs => ?_⟩
  obtain ⟨s', hf, hs'⟩ := fit_at_target (metric := fun x s => Sim.efTest sampleLibm 5 100 c .verySmall 0
    (pumpPolys.setCop0 j x) s) (x0 := 3) (step := 1 / 10 ^ 9) (by rw [e]; exact m3 s hs) (m4 _ ⟨_, _, la⟩)
    (by rw [e]; exact m3 _ ⟨_, _, lb⟩)
  have hl : Pumped s' := by
    rcases hs' with rfl | rfl
    · exact ⟨_, _, lb⟩
    · exact ⟨_, _, la⟩
  obtain ⟨c', ps', hl'⟩ := id hl
  exact ⟨s', hf, hl, a, r, ha _ (hl'.withPolys c pumpPolys), rfl⟩

theorem Pumped.facts {s : Sim 1 1} (h : Pumped s) (qs : PolySet) (T0 T : ℚ) :
    s.firstCondenser = some 0 ∧ s.maxSetpointOf 0 = (pumpBase (155 / 3) false).maxSetpointOf 0 ∧
    s.polysAt 0 T0 qs T = (pumpBase (155 / 3) false).polysAt 0 T0 qs T := by
  obtain ⟨c, ps, h⟩ := h
  have c1 : (pumpBase (155 / 3) false).firstCondenser = some 0 := by decide +kernel
  refine ⟨?_, ?_, ?_⟩
  · have : s.firstCondenser = ((s.setInletT c.inletT).resetOutputs).firstCondenser := rfl
    rw [this, h, ← c1]
    rfl
  · have : s.maxSetpointOf 0 = ((s.setInletT c.inletT).resetOutputs).maxSetpointOf 0 := rfl
    rw [this, h]
    rfl
  · have : s.polysAt 0 T0 qs T = ((s.setInletT c.inletT).resetOutputs).polysAt 0 T0 qs T := by
      have e : ((s.setInletT c.inletT).resetOutputs).cfg = s.cfg := rfl
      unfold Sim.polysAt Sim.withPolys
      rw [e]
      cases (s.cfg.src 0).kind <;> rfl
    rw [this, h]
    rfl

theorem pump_makes {c : TestConditions} {j : ℕ} {target : ℚ} {s s' : Sim 1 1} (hs : Pumped s)
    (e : pumpPolys.setCop0 j 3 = pumpPolys)
    (hf : Fit.fitOne (fun x s => Sim.efTest sampleLibm 5 100 c .verySmall 0 (pumpPolys.setCop0 j x) s) target (1 / 10 ^ 9) 3 s =
      .ok (3, s'))
    (c2 : pumpPolys.ambientIndex c.ambientT = .ok j) (c3 : pumpPolys.cop0 j = .ok 3)
    (c4 : (pumpBase (155 / 3) false).polysAt 0 c.ambientT pumpPolys ((pumpBase (155 / 3) false).maxSetpointOf 0) =
      .ok ⟨4000, 12000, 3⟩)
    (c5 : (pumpBase (155 / 3) false).polysAt 0 c.ambientT pumpPolys 0 = .ok ⟨4000, 12000, 3⟩) :
    Sim.makeGenericEF sampleLibm 5 100 c .verySmall target pumpPolys s = .ok (s'.withPolys 0 pumpPolys, pumpPolys) := by
  obtain ⟨c1, g1, g2⟩ := hs.facts pumpPolys c.ambientT (s.maxSetpointOf 0)
  obtain ⟨-, -, g3⟩ := hs.facts pumpPolys c.ambientT 0
  rw [g1] at g2
  unfold Sim.makeGenericEF
  rw [c1]
  dsimp only
  rw [bind_ok_iff]
  refine ⟨(pumpPolys, s'), ?_, rfl⟩
  unfold PolySet.makeGenericEF
  rw [bind_ok_iff]
  refine ⟨_, c2, ?_⟩
  rw [bind_ok_iff]
  refine ⟨_, c3, ?_⟩
  rw [bind_ok_iff]
  refine ⟨_, hf, ?_⟩
  dsimp only
  rw [e, g1, g2, g3, bind_ok_iff]
  refine ⟨_, c4, ?_⟩
  rw [if_neg (by norm_num), bind_ok_iff]
  refine ⟨_, c5, ?_⟩
  rw [if_neg (by norm_num)]

/-- The heat pump is fitted to the energy factor it has. -/
theorem pump_fits : ∃ target, ∀ s, Pumped s → ∃ s', Sim.makeGenericEF sampleLibm 5 100 testConditionsUEF .verySmall target
    pumpPolys s = .ok (s', pumpPolys) ∧ Pumped s' ∧
    ∃ a r, s'.run24hrTest sampleLibm 5 100 testConditionsUEF .verySmall = .ok (a, r) ∧ r.EF = target := by
  have e : pumpPolys.setCop0 1 3 = pumpPolys := by decide +kernel
  obtain ⟨target, h⟩ := pump_fitOne e pump_minutes pump_minutes'
  refine ⟨target, fun s hs => ?_⟩
  obtain ⟨s', hf, hs', ha⟩ := h s hs
  obtain ⟨c', ps', l⟩ := hs'
  exact ⟨_, pump_makes hs e hf (by decide +kernel) (by decide +kernel) (by decide +kernel) (by decide +kernel),
    ⟨c', _, l.withPolys c' pumpPolys⟩, ha⟩

theorem make_named {n k : ℕ} {m : Libm} {fuel limit : ℕ} {order : List Designation} {a : MeasureArgs} {target : ℚ}
    {ps qs : PolySet} {s s1 s2 : Sim n k} {d : Designation} {t : Sim.TestSummary k} {c : TestConditions}
    (h0 : a.drawProfileName ≠ []) (hd : profileNamed order a.drawProfileName = some d) (hc : conditionsNamed a.testConfig = c)
    (h1 : Sim.makeGenericEF m fuel limit c d target ps s = .ok (s1, qs))
    (h2 : Sim.run24hrTest m fuel limit c d s1 = .ok (s2, t)) :
    make m fuel limit order a target ps s = .ok ⟨s2, none, qs, t, resultsPath a.outputDir a.resultsFilename,
      if a.saveTestData = true ∧ a.outputDir ≠ [] then some (a.outputDir ++ "/generic.json".toList) else none⟩ := by
  subst hc
  unfold make
  rw [bind_ok_iff]
  refine ⟨(s, d, none), ?_, ?_⟩
  · unfold findProfile
    rw [if_pos h0, hd]
  rw [bind_ok_iff]
  refine ⟨(s1, qs), h1, ?_⟩
  rw [bind_ok_iff]
  exact ⟨(s2, t), h2, rfl⟩

/-- The hypotheses of `C93_fitted` and `C93_command` are met; here the energy factor reported is the one asked for. -/
example : ∃ target r, make sampleLibm 5 100 [.high, .verySmall, .low, .medium]
      ⟨".".toList, true, "day.txt".toList, "very SMALL".toList, "uef".toList⟩ target pumpPolys
        (pumpState testConditionsUEF pumpPolys (155 / 3) false) = .ok r ∧ r.model = some "./generic.json".toList ∧ r.results = some "./day.json".toList ∧ r.polys = pumpPolys ∧
        r.summary.EF = target := by
  obtain ⟨target, hfit⟩ := pump_fits
  obtain ⟨s', h, -, a, r, ha, e⟩ := hfit _ ⟨_, _, PumpLike.refl _ _ _ _⟩
  have hr : resultsPath ".".toList "day.txt".toList = some "./day.json".toList := by decide +kernel
  exact ⟨target, _, make_named (by decide +kernel) (by decide +kernel)
    (C89_unknown_conditions _ (by decide +kernel) (by decide +kernel) (by decide +kernel) (by decide +kernel)) h ha,
    by dsimp only; decide +kernel, hr, rfl, e⟩

end HPWH
