import Verif.Props.Cli
import Verif.Props.DayExample
import Verif.Props.Passes

/-! # Tests with the command `run`

A water heater whose long test comes to its end, and further cases that meet the hypotheses of C79 and C80. -/

namespace HPWH

open Spec Sim _root_.HPWH.Units

/-- A schedule file with the same value for all minutes. -/
def always (x : ℚ) : Option ScheduleFile := some ⟨"default", x, "", []⟩

/-- Schedules with a draw of half a gallon every minute. -/
def sampleFiles : ScheduleFiles := ⟨always 10, always (1 / 2), always 20, always 20, always 0, none, none⟩

/-- No options. -/
def sampleArgs : RunArgs := ⟨samplePow, fun _ => .ok 0, fun _ _ => .ok fun _ => 0, -1000, none, 0⟩

/-- A three-minute test in which the setpoint is changed in the last minute. -/
example : ∃ r, sampleSim.runTest sampleLibm 5 sampleArgs [.length 3, .setpoint 55]
      { sampleFiles with setpoint := some ⟨"default", 55, "minute", [(2, 50)]⟩ } = .ok r ∧
    r.1 = none ∧ r.2.2.length = 4 ∧ r.2.1.setpoint = 50 := by
  decide +kernel

/-- A water heater with a compressor that makes up for half a gallon in a minute. -/
def yearSim : Sim 1 1 :=
  { daySim with
    cfg := { daySim.cfg with
      src := fun _ => { daySim.cfg.src 0 with
        kind := .condenser { sampleCond with evaluate := fun _ _ _ => ⟨3000, 9000, 3⟩ } }
      compressorIndex := some 0, maxDepression := 4 } }

/-- Before every minute of a test the water heater is full and off. -/
def Full (s : Sim 1 1) : Prop := (s.setInletT 10).resetOutputs = (yearSim.setInletT 10)

theorem replicate_at (N i : ℕ) (x : ℚ) (h : i < N) : scheduleAt (List.replicate N x) i = .ok x := by
  unfold scheduleAt
  rw [List.getElem?_replicate, if_pos h]

/-- The schedules of a test of `N` minutes. -/
def yearSchedules (N : ℕ) : Schedules :=
  ⟨.replicate N 10, .replicate N (1 / 2), .replicate N 20, .replicate N 20, .replicate N 0, [], []⟩

theorem yearSchedules_eq (N : ℕ) : readSchedules sampleFiles N = .ok (yearSchedules N) := by
  simp [readSchedules, sampleFiles, requireSchedule, optionalSchedule, readSchedule, always, bind, Except.bind,
    pure, Except.pure, yearSchedules, not_lt.mpr (Int.natCast_nonneg N)]

/-- What the water heater is given in every minute. -/
def yearInput : MinuteInput := ⟨10, GAL_TO_L (1 / 2), 20, 20, 0, ⟨false, false, false, false⟩⟩

theorem Full.minute {s : Sim 1 1} (h : Full s) (c : Control) (hc : c.useSoC = false) (N i : ℕ) (hi : i < N) :
    ∃ s', runMinute sampleLibm 5 sampleArgs c (yearSchedules N) i s = .ok (yearInput, s') ∧ Full s' ∧
      minuteChecks yearInput s.tank.heatContent s' = true ∧ 0 < (s'.st 0).energyInput_kWh := by
  have key : ∃ s', runOneStep sampleLibm 5 (yearSim.setInletT 10) yearInput.step = .ok s' ∧
      s'.tank.toTankCfg = yearSim.tank.toTankCfg ∧ s'.tank.nodeTs = yearSim.tank.nodeTs ∧
      s'.setpoint = yearSim.setpoint ∧ s'.soc = 0 ∧ (s'.st 0).isOn = false ∧ (s'.st 0).lockedOut = false ∧
      s'.isHeating = false ∧ s'.locationT = -500 ∧ s'.timerTOT = 0 ∧
      minuteChecks yearInput yearSim.tank.heatContent s' = true ∧ 0 < (s'.st 0).energyInput_kWh := by
    decide +kernel
  obtain ⟨s', e, p1, p2, p3, p4, p5, p6, h3, h4, h5, h6, h7⟩ := key
  have es : runOneStep sampleLibm 5 (s.setInletT 10) yearInput.step = .ok s' := by
    rw [runOneStep_reset, show (s.setInletT 10).resetOutputs = _ from h]
    exact e
  have hheat : s.tank.heatContent = yearSim.tank.heatContent := by
    have := congrArg (fun x : Sim 1 1 => x.tank.heatContent) h
    exact this
  refine ⟨s', ?_, ?_, by rw [hheat]; exact h6, h7⟩
  · unfold runMinute minuteSettings minuteInput
    have a1 : ¬((yearSchedules N).setpoint ≠ [] ∧ s.cfg.setpointFixed = false) := by simp [yearSchedules]
    rw [if_neg a1]
    simp only [hc, Bool.false_eq_true, if_false, bind, Except.bind, yearSchedules, replicate_at _ _ _ hi,
      sampleArgs]
    have hdr : drMode 0 = .ok (0, ⟨false, false, false, false⟩) := by decide +kernel
    rw [if_neg (by norm_num)]
    simp only [hdr, mixDown, pure, Except.pure]
    rw [if_neg (by norm_num)]
    simp only
    unfold yearInput at es
    rw [es]
    rfl
  · obtain ⟨g1, g2⟩ := runOneStep_settings (u := yearInput.step) rfl e
    have g1 : s'.cfg = yearSim.cfg := g1
    have g2 : s'.socControl = none := g2
    have e2 : (fun i => ({ s'.st i with runtime_min := 0, energyInput_kWh := 0, energyOutput_kWh := 0 } :
        SourceState)) = fun _ => ⟨false, false, 0, 0, 0⟩ := by
      funext i
      obtain rfl : i = 0 := Subsingleton.elim _ _
      dsimp only
      rw [p5, p6]
    have e3 : ({ s'.tank with outletT := 0, standbyLosses_kJ := 0 } : Tank 1) = yearSim.tank := by
      dsimp only
      rw [p1, p2]; rfl
    unfold Full Sim.setInletT Sim.resetOutputs
    simp only [e2, e3, g1, g2, p3, p4, h3, h4, h5]
    rfl

theorem Full.minutes (N : ℕ) (c : Control) (hc : c.useSoC = false) (hm : c.minutes ≥ 500000) :
    ∀ (count i : ℕ) (s : Sim 1 1) (o : RunOutput 1), Full s → i + count ≤ N →
    ∃ s' o', runMinutes sampleLibm 5 sampleArgs c (yearSchedules N) count i s o = .ok (none, s', o') := by
  intro count
  induction count with
  | zero => intro i s o _ _; exact ⟨s, o, rfl⟩
  | succ count ih =>
    intro i s o hs hi
    obtain ⟨s1, h1, h2, h3, -⟩ := hs.minute c hc N i (by omega)
    have h2' : (s1.setInletT 10).resetOutputs = yearSim.setInletT 10 := h2
    have hcfg : (s1.setInletT 10).resetOutputs.cfg = yearSim.cfg := by rw [h2']; rfl
    have hcfg : s1.cfg = yearSim.cfg := hcfg
    have hmp : s1.isCompressorExternalMultipass = .ok false := by
      unfold isCompressorExternalMultipass compressor
      rw [hcfg]
      rfl
    obtain ⟨o1, ho⟩ : ∃ o1, o.add sampleArgs c (shownTarget c (yearSchedules N) i) i yearInput s1 = .ok o1 := by
      unfold RunOutput.add
      rw [if_neg (by omega), if_neg (by omega)]
      simp only
      split <;> exact ⟨_, rfl⟩
    obtain ⟨s', o', h⟩ := ih (i + 1) s1 o1 h2 (by omega)
    refine ⟨s', o', ?_⟩
    unfold runMinutes
    simp only [h1, h3, hmp, ho, bind, Except.bind, Bool.true_eq_false, if_false]
    exact h

theorem readControl_length (N : ℕ) (hN : N ≠ 0) :
    readControl [.length N] = .ok { Control.initial with minutes := N } := by
  unfold readControl
  rw [List.foldl_cons, List.foldl_nil]
  exact if_neg (by simp only [Control.read]; omega)

/-- A test of any length from 500000 minutes on, with a draw in every minute, comes to its end. -/
theorem yearSim_returns (N : ℕ) (hN : N ≥ 500000) :
    ∃ s' out, yearSim.runTest sampleLibm 5 sampleArgs [.length N] sampleFiles = .ok (none, s', out) := by
  have h1 := readControl_length N (by omega)
  have h3 : ∀ sch, yearSim.prepareRun sampleArgs { Control.initial with minutes := N } sch = .ok yearSim := by
    intro sch
    rfl
  obtain ⟨hd, h4⟩ : ∃ hd, yearSim.runHeading { Control.initial with minutes := N } = .ok hd := by
    unfold runHeading
    split
    · exact ⟨_, rfl⟩
    · exact ⟨_, rfl⟩
  obtain ⟨s', o, h⟩ := Full.minutes N { Control.initial with minutes := N } rfl (by simp; omega) N 0 yearSim
    ⟨[hd], fun _ => 0, fun _ => 0, 0⟩ rfl (by omega)
  refine ⟨s', o.lines, ?_⟩
  unfold runTest
  simp only [h1, yearSchedules_eq, h3, h4, bind, Except.bind, pure, Except.pure, Int.toNat_natCast, h]


/-- The hypotheses of `C80_daily_sums_partial` are met by a test of 350 days; those of `C80_boundary_heading` by one
of 500000 minutes. -/
example : (∃ c s' out, readControl [.length 504000] = .ok c ∧ c.minutes > 500000 ∧
      yearSim.runTest sampleLibm 5 sampleArgs [.length 504000] sampleFiles = .ok (none, s', out)) ∧
    ∃ c s' out, readControl [.length 500000] = .ok c ∧ c.minutes = 500000 ∧
      yearSim.runTest sampleLibm 5 sampleArgs [.length 500000] sampleFiles = .ok (none, s', out) := by
  constructor
  · obtain ⟨s', out, h⟩ := yearSim_returns 504000 (by norm_num)
    exact ⟨_, s', out, readControl_length 504000 (by norm_num), by norm_num, h⟩
  · obtain ⟨s', out, h⟩ := yearSim_returns 500000 (by norm_num)
    exact ⟨_, s', out, readControl_length 500000 (by norm_num), by norm_num, h⟩

/-- The hypotheses of `C79_checks_pass` are met by a test of the sample system. -/
example : ∃ c sch s0, readControl [.length 3] = .ok c ∧ readSchedules sampleFiles c.minutes = .ok sch ∧
    sampleSim.prepareRun sampleArgs c sch = .ok s0 ∧
    (∀ x, x = s0.setpoint ∨ x ∈ sch.setpoint → ({ s0 with setpoint := x } : Sim 3 2).AlwaysAccountable) ∧
    s0.cfg.minutesPerStep = 1 ∧ (∀ x ∈ sch.draw, 0 ≤ x) ∧ sampleArgs.model < 210 ∧
    ∃ r, sampleSim.runTest sampleLibm 5 sampleArgs [.length 3] sampleFiles = .ok r ∧ r.1 = none := by
  refine ⟨_, yearSchedules 3, _, readControl_length 3 (by norm_num), yearSchedules_eq 3, rfl, ?_, rfl, ?_, ?_, ?_⟩
  · intro x hx
    have hx : x = 55 := by
      rcases hx with h | h
      · exact h
      · simp [yearSchedules] at h
    subst hx
    have h : sampleSim.AlwaysAccountable :=
      ⟨by norm_num, warmTank_wellFormed.volume_pos, warmTank_wellFormed.nodeVolume, by decide +kernel,
        warmTank_wellFormed.inlet_le, warmTank_wellFormed.inlet2_le, warmTank_wellFormed.mixBelow_le,
        by decide +kernel, by decide +kernel, by decide +kernel, by decide +kernel,
        fun i air lo => sampleSim_sound _ air lo ⊤ i⟩
    exact ⟨h.nodes, h.volume, h.nodeVolume, h.nodeCp, h.inlet, h.inlet2, h.mixBelow, h.mixing, h.effectiveness,
      h.step, h.absolute, h.sound⟩
  · decide +kernel
  · decide
  · decide +kernel

/-- A draw of 10 gallons with the inlet at 10 °C = 50 °F and the top node at 60 °C = 140 °F: for the heat of
10 gallons at 125 °F, 8.3 gallons would be needed; the code takes 8.8. -/
example : ∃ g, mixDown { sampleArgs with model := 210 } 525600
      { daySim with tank := { daySim.tank with nodeTs := fun _ => 60 } } 10 10 = .ok g ∧
    g = 10 * (115 / 130) ∧ g * (140 - 50) ≠ 10 * (125 - 50) := by
  decide +kernel

/-- A water heater with four heat sources. -/
def fourSim : Sim 1 4 :=
  { yearSim with
    cfg := { yearSim.cfg with
      src := fun _ => { yearSim.cfg.src 0 with backup := none, companion := none, followedBy := none }
      compressorIndex := some 0, lowestElementIndex := none, vipIndex := none, heightMap := [] }
    st := fun _ => ⟨false, false, 0, 0, 0⟩ }

/-- Its test of 500000 minutes is undefined. -/
example : fourSim.runTest sampleLibm 5 sampleArgs [.length 500000] sampleFiles = .error .ub := by
  obtain ⟨hd, hh⟩ : ∃ hd, fourSim.runHeading { Control.initial with minutes := (500000 : ℕ) } = .ok hd := by
    unfold runHeading
    rw [if_neg (by norm_num)]
    exact ⟨_, rfl⟩
  have key : ∃ r, runMinute sampleLibm 5 sampleArgs { Control.initial with minutes := 500000 }
      (yearSchedules 500000) 0 fourSim = .ok r ∧ minuteChecks r.1 fourSim.tank.heatContent r.2 = true ∧
      r.2.isCompressorExternalMultipass = .ok false := by
    decide +kernel
  obtain ⟨⟨u, s1⟩, h1, h2, h3⟩ := key
  exact C80_four_sources_undefined sampleLibm 5 sampleArgs _ sampleFiles fourSim fourSim s1 _ _ _ u false
    (by norm_num) (by norm_num) (readControl_length 500000 (by norm_num)) (yearSchedules_eq 500000) rfl hh
    h1 h2 h3

/-! ## Control by the state of charge without its schedule -/

/-- **C79.** A test that asks for control by the state of charge but has no schedule for it: the program says that it
needs one, goes on, and reads outside of the empty schedule in the first minute. -/
theorem C79_charge_needs_schedule {n k : ℕ} (m : Libm) (fuel : ℕ) (a : RunArgs) (control : List ControlLine)
    (files : ScheduleFiles) (s s0 : Sim n k) (c : Control) (sch : Schedules) (l : Line)
    (hc : readControl control = .ok c) (hu : c.useSoC = true) (hpos : 0 < c.minutes) (hsoc : files.soc = none)
    (hset : files.setpoint = none) (hsch : readSchedules files c.minutes = .ok sch)
    (hp : s.prepareRun a c sch = .ok s0) (hl : s0.runHeading c = .ok l) :
    s.runTest m fuel a control files = .error .ub := by
  have e : sch.setpoint = [] ∧ sch.soc = [] := by
    unfold readSchedules at hsch
    rw [hsoc, hset] at hsch
    obtain ⟨_, _, h1⟩ := (bind_ok_iff _ _ _).mp hsch
    obtain ⟨_, _, h2⟩ := (bind_ok_iff _ _ _).mp h1
    obtain ⟨_, _, h3⟩ := (bind_ok_iff _ _ _).mp h2
    obtain ⟨_, _, h4⟩ := (bind_ok_iff _ _ _).mp h3
    obtain ⟨_, _, h5⟩ := (bind_ok_iff _ _ _).mp h4
    rw [← Except.ok.inj h5]
    exact ⟨rfl, rfl⟩
  obtain ⟨N, hN⟩ : ∃ N, c.minutes.toNat = N + 1 := ⟨c.minutes.toNat - 1, by omega⟩
  have hset' : s0.minuteSettings c sch 0 = .error .ub := by
    unfold minuteSettings
    rw [e.1, e.2, hu]
    rfl
  have hmin : runMinute m fuel a c sch 0 s0 = .error .ub := by
    unfold runMinute
    rw [hset']
    rfl
  unfold runTest
  rw [hc]
  change (readSchedules files c.minutes >>= _) = _
  rw [hsch]
  change (s.prepareRun a c sch >>= _) = _
  rw [hp]
  change (s0.runHeading c >>= _) = _
  rw [hl, hN]
  change (runMinutes m fuel a c sch (N + 1) 0 s0 _ >>= _) = _
  unfold runMinutes
  rw [hmin]
  rfl

/-- Such a test of ten minutes gets as far as its first minute. -/
example : ∃ c sch s0 l, readControl [.length 10, .useSoC 1] = .ok c ∧ c.useSoC = true ∧ 0 < c.minutes ∧
    readSchedules sampleFiles c.minutes = .ok sch ∧
    (externalSim sampleExtCond).prepareRun sampleArgs c sch = .ok s0 ∧
    s0.runHeading c = .ok l := by
  have ok : (((externalSim sampleExtCond).prepareRun sampleArgs { Control.initial with minutes := 10, useSoC := true }
      (yearSchedules 10) >>= fun s0 =>
        s0.runHeading { Control.initial with minutes := 10, useSoC := true }).isOk) = true := by decide +kernel
  cases h : (externalSim sampleExtCond).prepareRun sampleArgs { Control.initial with minutes := 10, useSoC := true }
      (yearSchedules 10) with
  | error e => rw [h] at ok; cases ok
  | ok s0 =>
    rw [h] at ok
    cases hl : s0.runHeading { Control.initial with minutes := 10, useSoC := true } with
    | error e => simp [bind, Except.bind, hl, Except.isOk, Except.toBool] at ok
    | ok l => exact ⟨_, yearSchedules 10, s0, l, rfl, rfl, by decide, yearSchedules_eq 10, h, hl⟩

end HPWH
