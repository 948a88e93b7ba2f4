import Verif.Spec.TestSetup
import Verif.Props.Report
import Verif.Props.Ports
import Verif.Props.Run

/-! # C88: the control file of a test takes effect -/

namespace HPWH

open Spec

variable {n k : ℕ}

/-! ## Reading the file -/

theorem lastValue_snoc {α : Type} (f : ControlLine → Option α) (d : α) (ls : List ControlLine) (l : ControlLine) :
    lastValue f d (ls ++ [l]) = (f l).getD (lastValue f d ls) := by
  unfold lastValue
  rw [List.filterMap_append]
  cases h : f l with
  | none => simp [h]
  | some x => simp [h]

theorem standsFor_fold (ls : List ControlLine) : StandsFor ls (ls.foldl Control.read Control.initial) := by
  induction ls using List.reverseRecOn with
  | nil => exact ⟨rfl, rfl, by simp [Control.initial, lastValue], by simp [Control.initial, lastValue], rfl, rfl, rfl,
      by simp [Control.initial, lastValue], rfl⟩
  | append_singleton ls l ih =>
    obtain ⟨h1, h2, h3, h4, h5, h6, h7, h8, h9⟩ := ih
    rw [List.foldl_append, List.foldl_cons, List.foldl_nil]
    generalize ls.foldl Control.read Control.initial = c at *
    refine ⟨?_, ?_, ?_, ?_, ?_, ?_, ?_, ?_, ?_⟩
    all_goals try rw [lastValue_snoc]
    · cases l <;> first | exact h1 | rfl
    · cases l <;> first | exact h2 | rfl
    · cases l <;> first | exact h3 | simp [Control.read, theMixing]
    · cases l <;> first | exact h4 | simp [Control.read, theConduction]
    · cases l <;> first | exact h5 | rfl
    · cases l <;> first | exact h6 | rfl
    · cases l <;> first | exact h7 | rfl
    · cases l <;> first | exact h8 | simp [Control.read, theSoC]
    · rw [List.filterMap_append]
      cases l with
      | initialTs xs =>
        simp only [Control.read, h9, List.filterMap_cons, theProfile, List.filterMap_nil]
        by_cases h : ls.filterMap theProfile = []
        · simp [h]
        · simp [h]
      | _ =>
        change c.initialTs = _
        simp only [List.filterMap_cons, theProfile, List.filterMap_nil, List.append_nil]
        exact h9

theorem Spec.StandsFor.unique {ls : List ControlLine} {c c' : Control} (h : StandsFor ls c) (h' : StandsFor ls c') :
    c = c' := by
  obtain ⟨h1, h2, h3, h4, h5, h6, h7, h8, h9⟩ := h
  obtain ⟨g1, g2, g3, g4, g5, g6, g7, g8, g9⟩ := h'
  have e3 : c.mixing = c'.mixing := Bool.eq_iff_iff.mpr (h3.trans g3.symm)
  have e4 : c.conduction = c'.conduction := Bool.eq_iff_iff.mpr (h4.trans g4.symm)
  have e8 : c.useSoC = c'.useSoC := Bool.eq_iff_iff.mpr (h8.trans g8.symm)
  cases c; cases c'
  simp_all

/-- **C88.** A control file is accepted exactly if it gives the test a length other than 0, and is then read as the
settings it stands for. -/
theorem C88_control (lines : List ControlLine) (c : Control) :
    readControl lines = .ok c ↔ StandsFor lines c ∧ lastValue theLength 0 lines ≠ 0 := by
  have h := standsFor_fold lines
  unfold readControl
  dsimp only
  rw [← h.minutes]
  constructor
  · intro hc
    split_ifs at hc with h0
    cases hc
    exact ⟨h, h0⟩
  · rintro ⟨h', h0⟩
    rw [if_neg h0, h.unique h']

/-! ## Preparing the heater -/

theorem profileAxis_middles (N : ℕ) : profileAxis N = middles N := by
  unfold profileAxis middles
  refine List.map_congr_left fun i _ => ?_
  rcases Nat.eq_zero_or_pos N with rfl | h
  · simp
  · have : (N : ℚ) ≠ 0 := by positivity
    field_simp

namespace Sim

theorem newSetpointPossible_congr {s s' : Sim n k} (h1 : s'.cfg.setpointFixed = s.cfg.setpointFixed)
    (h2 : s'.setpoint = s.setpoint) (h3 : s'.cfg.lowestElementIndex = s.cfg.lowestElementIndex)
    (h4 : s'.cfg.compressorIndex = s.cfg.compressorIndex) (h5 : s'.cfg.src = s.cfg.src)
    (h6 : s'.cfg.isStorageTank = s.cfg.isStorageTank) (x : ℚ) : s'.newSetpointPossible x = s.newSetpointPossible x := by
  unfold newSetpointPossible
  rw [h1, h2, h3, h4, h5, h6]

/-- The switches of the tank and of the cooling of the room. -/
def withSwitches (a : RunArgs) (c : Control) (s : Sim n k) : Sim n k :=
  { s with
    cfg := { s.cfg with maxDepression := 4, doTempDepression := decide (a.airTemp > 0) }
    tank := { s.tank with
      doInversionMixing := (c.mixing && s.tank.doInversionMixing)
      doConduction := (c.conduction && s.tank.doConduction) } }

/-- The rest of the preparation. -/
def prepareRest (a : RunArgs) (c : Control) (sch : Schedules) (s : Sim n k) : Res (Sim n k) := do
  let s ← (if c.setpoint > 0 then
      initialTank a c (s.trySetpoint (match sch.setpoint with | [] => c.setpoint | x :: _ => x))
    else .ok s)
  let s ← (if c.inletH > 0 then s.setInletByFraction c.inletH else .ok s)
  let s ← (if c.tankSize > 0 then s.setTankSize a.pow .GAL c.tankSize false else .ok s)
  let s ← (if c.totLimit > 0 then s.setTimerLimitTOT c.totLimit else .ok s)
  if c.useSoC then s.switchToSoC .C 1 (1 / 20) (Units.F_TO_C 110) true (Units.F_TO_C 65) else .ok s

theorem prepareRun_eq (a : RunArgs) (c : Control) (sch : Schedules) (s : Sim n k) :
    s.prepareRun a c sch = prepareRest a c sch (s.withSwitches a c) := by
  have e : s.setMaxTempDepression .C 4 = .ok { s with cfg := { s.cfg with maxDepression := 4 } } := rfl
  unfold prepareRun prepareRest withSwitches
  rw [e]
  cases hm : c.mixing <;> cases hc : c.conduction <;> simp only [Bool.false_and, Bool.true_and] <;> rfl

/-- The filling of the tank. -/
theorem fill_ok {a : RunArgs} {c : Control} {y : ℚ} {A B : Sim n k}
    (h : (if c.setpoint > 0 then initialTank a c (A.trySetpoint y) else .ok A) = .ok B) :
    ∃ T, B = { A with
        setpoint := if 0 < c.setpoint ∧ A.newSetpointPossible y = true then y else A.setpoint
        tank := { A.tank with nodeTs := T } } ∧
      (¬ 0 < c.setpoint → T = A.tank.nodeTs) ∧
      (0 < c.setpoint → c.initialTs = none → a.measured = none ∧ ∀ i, T i = B.setpoint) ∧
      (0 < c.setpoint → ∀ xs, c.initialTs = some xs → ∃ f, a.rgi (middles xs.length) xs = .ok f ∧
        ∀ i : Fin (n + 1), T i = f ((2 * (i : ℚ) + 1) / (2 * (n + 1)))) := by
  by_cases h0 : 0 < c.setpoint
  · rw [if_pos h0] at h
    have e : A.trySetpoint y = { A with setpoint := if 0 < c.setpoint ∧ A.newSetpointPossible y = true then y
        else A.setpoint } := by
      unfold trySetpoint
      by_cases h1 : A.newSetpointPossible y = true <;> simp [h0, h1]
    rw [e] at h
    unfold initialTank at h
    cases hi : c.initialTs with
    | none =>
      rw [hi] at h
      dsimp only at h
      cases hm : a.measured with
      | some file =>
        rw [hm] at h
        dsimp only at h
        rw [C76_never_loads] at h
        cases h
      | none =>
        rw [hm] at h
        cases h
        exact ⟨_, rfl, fun h => absurd h0 h, fun _ _ => ⟨rfl, fun _ => rfl⟩, fun _ _ h => by cases h⟩
    | some xs =>
      rw [hi] at h
      obtain ⟨t, ht, h⟩ := (bind_ok_iff _ _ _).mp h
      unfold Tank.setProfileTs at ht
      obtain ⟨f, hf, ht⟩ := (bind_ok_iff _ _ _).mp ht
      cases ht
      cases h
      refine ⟨_, rfl, fun h => absurd h0 h, (fun _ h => by cases h), fun _ ys hy => ?_⟩
      cases hy
      rw [profileAxis_middles] at hf
      refine ⟨f, hf, fun i => ?_⟩
      congr 1
      field_simp
  · rw [if_neg h0] at h
    cases h
    refine ⟨A.tank.nodeTs, by simp [h0], fun _ => rfl, fun h => absurd h h0, fun h => absurd h h0⟩

/-- **C88.** Before the first minute the heater is set up as the control file asks; all other settings are kept. -/
theorem C88_set_up (a : RunArgs) (hp : PowPos a.pow) (c : Control) (sch : Schedules) (s s' : Sim n k)
    (h : s.prepareRun a c sch = .ok s') : SetUp a c sch s s' := by
  rw [prepareRun_eq] at h
  unfold prepareRest at h
  obtain ⟨B, hB, h⟩ := (bind_ok_iff _ _ _).mp h
  obtain ⟨C, hC, h⟩ := (bind_ok_iff _ _ _).mp h
  obtain ⟨D, hD, h⟩ := (bind_ok_iff _ _ _).mp h
  obtain ⟨E, hE, h⟩ := (bind_ok_iff _ _ _).mp h
  have hy : (match sch.setpoint with | [] => c.setpoint | x :: _ => x) = sch.setpoint.head?.getD c.setpoint := by
    cases sch.setpoint <;> rfl
  obtain ⟨T, eB, f1, f2, f3⟩ := fill_ok hB
  rw [hy] at eB
  have hposs : (s.withSwitches a c).newSetpointPossible (sch.setpoint.head?.getD c.setpoint) =
      s.newSetpointPossible (sch.setpoint.head?.getD c.setpoint) := newSetpointPossible_congr rfl rfl rfl rfl rfl rfl _
  rw [hposs] at eB
  obtain ⟨j, eC, gC⟩ : ∃ j, C = { B with tank := { B.tank with inletHeight := j } } ∧
      (if 0 < c.inletH then c.inletH ≤ 1 ∧ NodeAt (n + 1) c.inletH j else j = B.tank.inletHeight) := by
    by_cases h0 : 0 < c.inletH
    · rw [if_pos h0] at hC
      unfold setInletByFraction Tank.setInletByFraction at hC
      obtain ⟨t, ht, hC⟩ := (bind_ok_iff _ _ _).mp hC
      obtain ⟨j, hj, ht⟩ := (bind_ok_iff _ _ _).mp ht
      cases ht; cases hC
      obtain ⟨-, q1, q2⟩ := (C40_fraction (n + 1) (by omega) _ _).mp hj
      exact ⟨j, rfl, by rw [if_pos h0]; exact ⟨q1, q2⟩⟩
    · rw [if_neg h0] at hC
      cases hC
      exact ⟨_, rfl, by rw [if_neg h0]⟩
  obtain ⟨t, eD, gD, vD⟩ : ∃ t : Tank n, D = { C with tank := t } ∧
      SameButSizes { C.tank with volume_L := t.volume_L } t ∧
      (if 0 < c.tankSize then C.tank.volumeFixed = false ∧ t.volume_L = c.tankSize * (378541 / 100000)
        else t.volume_L = C.tank.volume_L) := by
    by_cases h0 : 0 < c.tankSize
    · rw [if_pos h0] at hD
      obtain ⟨q1, q2, q3, q4, q5, q6⟩ := C41_set_size a.pow hp C D .GAL c.tankSize false hD
      refine ⟨D.tank, q6, q5, ?_⟩
      rw [if_pos h0]
      refine ⟨?_, (Option.some.inj q1).symm⟩
      cases hf : C.tank.volumeFixed with
      | false => rfl
      | true => cases q3 hf
    · rw [if_neg h0] at hD
      cases hD
      exact ⟨C.tank, rfl, rfl, by rw [if_neg h0]⟩
  obtain ⟨l, eE, gE⟩ : ∃ l, E = { D with cfg := { D.cfg with timerLimitTOT := l } } ∧
      (if 0 < c.totLimit then c.totLimit ≤ 1440 ∧ l = c.totLimit else l = D.cfg.timerLimitTOT) := by
    by_cases h0 : 0 < c.totLimit
    · rw [if_pos h0] at hE
      unfold setTimerLimitTOT at hE
      split_ifs at hE with h1
      cases hE
      refine ⟨c.totLimit, rfl, ?_⟩
      rw [if_pos h0]
      refine ⟨?_, rfl⟩
      have := not_lt.mp fun h => h1 (.inl h)
      linarith
    · rw [if_neg h0] at hE
      cases hE
      exact ⟨_, rfl, by rw [if_neg h0]⟩
  obtain ⟨soc, src, eF, gF, kF⟩ : ∃ soc src, s' = { E with socControl := soc, cfg := { E.cfg with src := src } } ∧
      (if c.useSoC then soc = some ⟨(110 - 32) * 5 / 9, true, (65 - 32) * 5 / 9⟩
        else soc = E.socControl ∧ src = E.cfg.src) ∧
      ∀ i, (src i).kind = (E.cfg.src i).kind ∧ (src i).heatDist = (E.cfg.src i).heatDist := by
    by_cases h0 : c.useSoC = true
    · rw [if_pos h0] at h
      unfold switchToSoC at h
      obtain ⟨x, -, h⟩ := (bind_ok_iff _ _ _).mp h
      split_ifs at h with h1
      obtain ⟨u, hu, h⟩ := (bind_ok_iff _ _ _).mp h
      obtain ⟨w, hw, h⟩ := (bind_ok_iff _ _ _).mp h
      cases hu; cases hw
      split_ifs at h with h2
      cases h
      refine ⟨_, _, rfl, ?_, fun _ => ⟨rfl, rfl⟩⟩
      rw [if_pos h0]
      norm_num [Units.F_TO_C, Units.offsetF, Units.FperC]
    · rw [if_neg h0] at h
      cases h
      exact ⟨_, _, rfl, by rw [if_neg h0]; exact ⟨rfl, rfl⟩, fun _ => ⟨rfl, rfl⟩⟩
  have gt : t.doInversionMixing = C.tank.doInversionMixing ∧ t.doConduction = C.tank.doConduction ∧
      t.nodeTs = C.tank.nodeTs ∧ t.inletHeight = C.tank.inletHeight ∧ t.UA = C.tank.UA ∧
      t.mixesOnDraw = C.tank.mixesOnDraw ∧ t.mixBelowFractionOnDraw = C.tank.mixBelowFractionOnDraw ∧
      t.hasHeatExchanger = C.tank.hasHeatExchanger ∧ t.inlet2Height = C.tank.inlet2Height := by
    unfold SameButSizes at gD
    rw [gD]
    exact ⟨rfl, rfl, rfl, rfl, rfl, rfl, rfl, rfl, rfl⟩
  obtain ⟨t1, t2, t3, t4, t5, t6, t7, t8, t9⟩ := gt
  subst eF eE eD eC
  dsimp only at gF kF gE vD t1 t2 t3 t4 t5 t6 t7 t8 t9 ⊢
  have b : B.cfg = (s.withSwitches a c).cfg ∧ B.tank.toTankCfg = (s.withSwitches a c).tank.toTankCfg ∧ B.tank.nodeTs = T ∧
      B.st = s.st ∧ B.isHeating = s.isHeating ∧ B.socControl = s.socControl ∧
      B.setpoint = (if 0 < c.setpoint ∧ s.newSetpointPossible (sch.setpoint.head?.getD c.setpoint) = true then
        sch.setpoint.head?.getD c.setpoint else s.setpoint) := by
    rw [eB]
    exact ⟨rfl, rfl, rfl, rfl, rfl, rfl, rfl⟩
  obtain ⟨b1, b2, b3, b4, b5, b6, b7⟩ := b
  have b2' : ∀ {β : Type} (g : TankCfg → β), g B.tank.toTankCfg = g (s.withSwitches a c).tank.toTankCfg := fun g => by rw [b2]
  refine ⟨⟨?_, ?_⟩, ?_, ?_, ?_, ?_, ?_, ?_, ?_, ?_, ?_, ?_, ?_⟩
  · dsimp only; rw [b1]; rfl
  · dsimp only; rw [b1]; simp [withSwitches]
  · exact t1.trans (b2' (·.doInversionMixing))
  · exact t2.trans (b2' (·.doConduction))
  · exact b7
  · intro h0
    exact t3.trans (b3.trans (f1 h0))
  · intro h0 h1
    refine ⟨(f2 h0 h1).1, fun i => ?_⟩
    dsimp only
    rw [t3, b3]
    exact (f2 h0 h1).2 i
  · intro h0 xs hx
    obtain ⟨f, hf, hT⟩ := f3 h0 xs hx
    refine ⟨f, hf, fun i => ?_⟩
    dsimp only
    rw [t3, b3]
    exact hT i
  · dsimp only
    rw [t4]
    have := b2' (·.inletHeight)
    rw [this] at gC
    exact gC
  · have e1 := b2' (·.volumeFixed)
    have e2 := b2' (·.volume_L)
    rw [e1, e2] at vD
    exact vD
  · dsimp only
    rw [b1] at gE
    exact gE
  · dsimp only
    rw [b1, b6] at gF
    exact gF
  · refine ⟨t5.trans (b2' (·.UA)), t6.trans (b2' (·.mixesOnDraw)), t7.trans (b2' (·.mixBelowFractionOnDraw)),
      t8.trans (b2' (·.hasHeatExchanger)), t9.trans (b2' (·.inlet2Height)), fun i => ?_, b4, b5, ?_, ?_, ?_⟩
    · rw [b1] at kF
      exact kF i
    · dsimp only; rw [b1]; rfl
    · dsimp only; rw [b1]; rfl
    · dsimp only; rw [b1]; rfl

/-- **C88.** A profile with one temperature per node, and a library that gives back the values at the points it is
given: every node has the temperature listed for it, the lowest first. -/
theorem C88_profile (a : RunArgs) (hp : PowPos a.pow) (c : Control) (sch : Schedules) (s s' : Sim n k)
    (xs : List ℚ) (hx : c.initialTs = some xs) (hlen : xs.length = n + 1) (hset : 0 < c.setpoint)
    (hrgi : ∀ f, a.rgi (middles xs.length) xs = .ok f → ∀ q ∈ (middles xs.length).zip xs, f q.1 = q.2)
    (h : s.prepareRun a c sch = .ok s') (i : Fin (n + 1)) : xs[(i : ℕ)]? = some (s'.tank.nodeTs i) := by
  obtain ⟨f, hf, hT⟩ := (C88_set_up a hp c sch s s' h).profile hset xs hx
  have hi : (i : ℕ) < xs.length := by omega
  have h1 : (middles xs.length)[(i : ℕ)]? = some ((2 * (i : ℚ) + 1) / (2 * (n + 1))) := by
    unfold middles
    rw [List.getElem?_map, List.getElem?_range hi, hlen]
    simp
  have h2 : xs[(i : ℕ)]? = some xs[(i : ℕ)] := List.getElem?_eq_getElem hi
  have h3 : ((2 * (i : ℚ) + 1) / (2 * (n + 1)), xs[(i : ℕ)]) ∈ (middles xs.length).zip xs := by
    refine List.mem_of_getElem? (i := (i : ℕ)) ?_
    rw [List.getElem?_zip_eq_some]
    exact ⟨h1, h2⟩
  have := hrgi f hf _ h3
  dsimp only at this
  rw [hT i, this, h2]

/-- Finding: without a setpoint in the control file the starting temperatures it lists are ignored. -/
theorem C88_profile_ignored (a : RunArgs) (hp : PowPos a.pow) (c : Control) (sch : Schedules) (s s' : Sim n k)
    (hset : ¬ 0 < c.setpoint) (h : s.prepareRun a c sch = .ok s') (xs : List ℚ) :
    s'.tank.nodeTs = s.tank.nodeTs ∧
    ∃ s'', s.prepareRun a { c with initialTs := some xs } sch = .ok s'' ∧ s''.tank.nodeTs = s.tank.nodeTs := by
  refine ⟨(C88_set_up a hp c sch s s' h).kept hset, s', ?_, (C88_set_up a hp c sch s s' h).kept hset⟩
  rw [prepareRun_eq] at h ⊢
  unfold prepareRest at h ⊢
  dsimp only
  rw [if_neg hset] at h ⊢
  exact h

/-! ### A test that is set up -/

/-- An interpolation that knows the values at the given points and nothing else. -/
def pointwise : Interpolator := fun axis values =>
  .ok fun p => ((axis.zip values).find? fun q => q.1 = p).elim 0 (·.2)

def sampleArgs : RunArgs := ⟨samplePow, fun _ => .ok 0, pointwise, 60, none, 100⟩

def sampleFile : List ControlLine :=
  [.setpoint 50, .length 1440, .inversionMixing 0, .initialTs [10, 20], .other "name", .setpoint 51, .tankSize 80,
   .inletH (1 / 2), .totLimit 90, .initialTs [30, 40]]

example : ∃ c, readControl sampleFile = .ok c ∧ c.setpoint = 51 ∧ c.mixing = false ∧ c.conduction = true ∧
    c.initialTs = some [10, 20, 30, 40] ∧
    (∀ f, sampleArgs.rgi (middles 4) [10, 20, 30, 40] = .ok f →
      ∀ q ∈ (middles 4).zip [10, 20, 30, 40], f q.1 = q.2) ∧
    ∃ s', sampleSim.prepareRun sampleArgs c ⟨[], [], [], [], [], [], []⟩ = .ok s' ∧ s'.tank.nodeTs 0 = 10 ∧
      s'.tank.nodeTs 2 = 30 ∧ s'.tank.inletHeight = 2 ∧ s'.setpoint = 51 ∧ s'.cfg.timerLimitTOT = 90 ∧
      s'.tank.volume_L = 80 * (378541 / 100000) ∧ s'.cfg.doTempDepression = true := by
  refine ⟨_, rfl, by decide +kernel, by decide +kernel, by decide +kernel, by decide +kernel, fun f hf => ?_,
    by decide +kernel⟩
  cases hf
  decide +kernel

example : readControl [.setpoint 50] = .error .error := rfl

end Sim
end HPWH
