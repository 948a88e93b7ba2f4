import Verif.Props.Rating

/-! # C51, C64, C65, C66: the 24-hour test and its preparation -/

namespace HPWH

open Spec _root_.HPWH.Units

variable {n k : ℕ}

/-- The inputs of one minute of a test: water enters at the test's inlet temperature, nothing by the
second inlet, no extra heat. -/
def testInput (c : TestConditions) (dr : DR) (draw_L : ℚ) : Sim.StepInput :=
  ⟨draw_L, c.ambientT, c.externalT, dr, 0, c.inletT, []⟩

/-- One minute of a test. -/
def TestMinute (m : Libm) (fuel : ℕ) (c : TestConditions) (dr : DR) (draw_L : ℚ) (s s' : Sim n k) :
    Prop :=
  Sim.runOneStep m fuel { s with inletT := c.inletT, haveInletT := true } (testInput c dr draw_L) = .ok s'

/-- No demand response. -/
def noSignal : DR := ⟨false, false, false, false⟩

theorem testStep_iff {m : Libm} {fuel : ℕ} {c : TestConditions} {dr : DR} {s s' : Sim n k} {v : ℚ} :
    Sim.testStep m fuel c dr s v = .ok s' ↔ TestMinute m fuel c dr v s s' := Iff.rfl

/-- A property of simulators that minutes of a test keep, together with the tank's volume. -/
structure Kept (m : Libm) (fuel : ℕ) (c : TestConditions) (P : Sim n k → Prop) : Prop where
  step : ∀ (dr : DR) (v : ℚ) (s s' : Sim n k), P s → 0 ≤ v → TestMinute m fuel c dr v s s' →
    P s' ∧ s'.tank.volume_L = s.tank.volume_L
  volume : ∀ s, P s → 0 < s.tank.volume_L

/-- A tank with consistent sizes and a setpoint above absolute zero. -/
def Usable (s : Sim n k) : Prop := s.tank.WellFormed ∧ -27315 / 100 < s.setpoint

/-- A minute of a test changes neither the tank's settings nor those of the simulator. -/
theorem testMinute_same {m : Libm} {fuel : ℕ} {c : TestConditions} {dr : DR} {v : ℚ} {s s' : Sim n k}
    (hu : Usable s) (hv : 0 ≤ v) (h : TestMinute m fuel c dr v s s') :
    s'.tank.toTankCfg = s.tank.toTankCfg ∧ s'.cfg = s.cfg ∧ s'.setpoint = s.setpoint ∧
    s'.inletT = c.inletT ∧ s'.haveInletT = true ∧ s'.socControl = s.socControl := by
  obtain ⟨hw, habs⟩ := hu
  obtain ⟨-, s0, s1, s2, hs, h1, h2, rfl⟩ := runOneStep_ok h
  have hdrawn := hs.drawn
  unfold Sim.DrawnTank at hdrawn
  obtain ⟨f1, -⟩ := updateNodes_facts _ _ (hw.of_cfg (t' :=
    { s.tank with outletT := 0, standbyLosses_kJ := 0 }) rfl) _ _ _ _ _ _ _ hv hdrawn
  have hcfg0 : s0.tank.toTankCfg = s.tank.toTankCfg := f1
  have inv := control_frame h1
  have e2 : s2 = s1 := (extraStep_frame h2).2.2.2.2.2.2.2 rfl
  obtain ⟨g1, g2, -⟩ := finish_facts s2 c.ambientT dr
  have habs0 : Sim.noSetpoint < s0.setpoint := by rw [hs.setpoint]; exact habs
  obtain ⟨q1, q2, q3, q4, q5⟩ := inv.same habs0
  refine ⟨?_, ?_, ?_, ?_, ?_, ?_⟩
  · rw [show (((s2.trackLocation (testInput c dr v).tankAmbient).settleOutputs).updateTimer
      (testInput c dr v).dr).tank = s2.tank from congrArg Plant.tank g1, e2, q1]
    exact hcfg0
  · exact g2.trans (by rw [e2, inv.cfg, hs.cfg])
  · exact (congrArg Plant.setpoint g1).trans (by rw [e2, q2, hs.setpoint])
  · exact (congrArg Plant.inletT g1).trans (by rw [e2, q3, hs.inletT])
  · exact (congrArg Plant.haveInletT g1).trans (by rw [e2, q4, hs.haveInletT])
  · exact (congrArg Plant.socControl g1).trans (by rw [e2, q5, hs.socControl])

theorem usable_kept (m : Libm) (fuel : ℕ) (c : TestConditions) :
    Kept m fuel c (Usable (n := n) (k := k)) where
  volume _ h := h.1.volume_pos
  step := by
    rintro dr v s s' hu hv h
    obtain ⟨e1, -, e3, -⟩ := testMinute_same hu hv h
    exact ⟨⟨hu.1.of_cfg e1, by rw [e3]; exact hu.2⟩, congrArg TankCfg.volume_L e1⟩

/-- One minute of a test: the heat content changes by the heat delivered by the sources, less what the
draw takes away beyond what the inlet brings, less the standby losses. -/
theorem testMinute_balance {m : Libm} (hexp : ∀ x, 0 ≤ m.exp x) {fuel : ℕ} {c : TestConditions}
    {dr : DR} {s s' : Sim n k} (h : s.AlwaysAccountable) {v : ℚ} (hd : 0 ≤ v)
    (hr : TestMinute m fuel c dr v s s') :
    s'.AlwaysAccountable ∧ s'.tank.volume_L = s.tank.volume_L ∧
    tankHeat s.tank.volume_L s'.tank.nodeTs = tankHeat s.tank.volume_L s.tank.nodeTs +
      3600 * ∑ i, (s'.st i).energyOutput_kWh - waterHeat v (s'.tank.outletT - c.inletT) -
      3600 * s'.standbyLosses_kWh := by
  have h' : ({ s with inletT := c.inletT, haveInletT := true } : Sim n k).AlwaysAccountable :=
    ⟨h.nodes, h.volume, h.nodeVolume, h.nodeCp,
    h.inlet, h.inlet2, h.mixBelow, h.mixing, h.effectiveness, h.step, h.absolute, h.sound⟩
  obtain ⟨lo, ha⟩ := h'.accountable (testInput c dr v) hd (by simp [testInput])
  obtain ⟨b, b2, -, -, hc, hcfg, hsp, -⟩ := step_facts m hexp fuel _ s' _ lo ⊤ ha hr
  have hc : s'.tank.toTankCfg = s.tank.toTankCfg := hc
  have hcfg : s'.cfg = s.cfg := hcfg
  have hsp : s'.setpoint = s.setpoint := hsp
  refine ⟨?_, by rw [hc], ?_⟩
  · refine ⟨h.nodes, ?_, ?_, ?_, ?_, ?_, ?_, ?_, ?_, ?_, ?_, ?_⟩
    · rw [hc]; exact h.volume
    · rw [hc]; exact h.nodeVolume
    · rw [hc]; exact h.nodeCp
    · rw [hc]; exact h.inlet
    · rw [hc]; exact h.inlet2
    · rw [hc]; exact h.mixBelow
    · rw [hc]; exact h.mixing
    · rw [hc]; exact h.effectiveness
    · rw [hcfg]; exact h.step
    · rw [hsp]; exact h.absolute
    · rw [hcfg, hsp]; exact h.sound
  · have hx : s'.extraEnergyInput_kWh = 0 := by rw [b2]; simp [testInput]
    rw [hx] at b
    have hin : ({ s with inletT := c.inletT, haveInletT := true } : Sim n k).inletHeat
        (testInput c dr v) = waterHeat v c.inletT := by
      unfold Sim.inletHeat testInput waterHeat
      by_cases hz : v = 0
      · simp [hz]
      · simp only [hz, ↓reduceIte]
        split_ifs <;> ring
    have hout : (if (testInput c dr v).draw_L = 0 then 0 else
        waterHeat (testInput c dr v).draw_L s'.tank.outletT) = waterHeat v s'.tank.outletT := by
      unfold testInput waterHeat
      by_cases hz : v = 0
      · simp [hz]
      · simp only [hz, ↓reduceIte]
    rw [hin, hout] at b
    have e1 : ({ s with inletT := c.inletT, haveInletT := true } : Sim n k).tank = s.tank := rfl
    rw [e1] at b
    have e2 : waterHeat v (s'.tank.outletT - c.inletT) =
        waterHeat v s'.tank.outletT - waterHeat v c.inletT := by unfold waterHeat; ring
    rw [e2]
    linarith

theorem accountable_kept (m : Libm) (hexp : ∀ x, 0 ≤ m.exp x) (fuel : ℕ) (c : TestConditions) :
    Kept m fuel c (Sim.AlwaysAccountable (n := n) (k := k)) where
  volume _ h := h.volume
  step _ _ _ _ h hv hr := ⟨(testMinute_balance hexp h hv hr).1, (testMinute_balance hexp h hv hr).2.1⟩

/-! ## C66: the preparation -/

/-- Put a state in front of a sequence of states. -/
def precede (s : Sim n k) (S : ℕ → Sim n k) : ℕ → Sim n k
  | 0 => s
  | t + 1 => S t

theorem prep_recovering {m : Libm} {fuel : ℕ} {c : TestConditions} {flow : ℚ} :
    ∀ (limit : ℕ) (s s' : Sim n k),
    Sim.prepLoop m fuel c flow limit s .recovering false = .ok s' →
    ∃ (T : ℕ) (S : ℕ → Sim n k), S 0 = s ∧ S (T + 1) = s' ∧ (S T).isHeating = false ∧
      (∀ t < T, (S t).isHeating = true) ∧
      ∀ t ≤ T, Sim.testStep m fuel c Sim.drAllow (S t) ((S t).limitDraw flow false) = .ok (S (t + 1)) := by
  intro limit
  induction limit with
  | zero => intro s s' h; cases h
  | succ limit ih =>
    intro s s' h
    rw [Sim.prepLoop] at h
    cases hh : s.isHeating with
    | false =>
      rw [hh] at h
      simp only [Sim.prepNext, Bool.not_false, if_true] at h
      rw [bind_ok_iff] at h
      obtain ⟨s1, h1, h⟩ := h
      refine ⟨0, precede s fun _ => s1, rfl, Except.ok.inj h, hh, by simp, fun t ht => ?_⟩
      obtain rfl : t = 0 := by omega
      exact h1
    | true =>
      rw [hh] at h
      simp only [Sim.prepNext, Bool.not_true, Bool.false_eq_true, if_false] at h
      rw [bind_ok_iff] at h
      obtain ⟨s1, h1, h⟩ := h
      obtain ⟨T, S, e0, e1, e2, e3, e4⟩ := ih _ _ h
      refine ⟨T + 1, precede s S, rfl, e1, e2, fun t ht => ?_, fun t ht => ?_⟩
      · match t with
        | 0 => exact hh
        | t + 1 => exact e3 t (by omega)
      · match t with
        | 0 => change Sim.testStep m fuel c Sim.drAllow s _ = .ok (S 0); rw [e0]; exact h1
        | t + 1 => exact e4 t (by omega)

theorem prep_drawing {m : Libm} {fuel : ℕ} {c : TestConditions} {flow : ℚ} :
    ∀ (limit : ℕ) (s s' : Sim n k),
    Sim.prepLoop m fuel c flow limit s .drawing true = .ok s' →
    ∃ (b T : ℕ) (S : ℕ → Sim n k), S 0 = s ∧ S (T + 1) = s' ∧ b < T ∧ (S b).isHeating = true ∧
      (∀ t < b, (S t).isHeating = false) ∧ (S T).isHeating = false ∧
      (∀ t, b < t → t < T → (S t).isHeating = true) ∧
      ∀ t ≤ T, Sim.testStep m fuel c Sim.drAllow (S t) ((S t).limitDraw flow (decide (t < b))) =
        .ok (S (t + 1)) := by
  intro limit
  induction limit with
  | zero => intro s s' h; cases h
  | succ limit ih =>
    intro s s' h
    rw [Sim.prepLoop] at h
    cases hh : s.isHeating with
    | true =>
      rw [hh] at h
      simp only [Sim.prepNext, if_true, Bool.false_eq_true, if_false] at h
      rw [bind_ok_iff] at h
      obtain ⟨s1, h1, h⟩ := h
      obtain ⟨T, S, e0, e1, e2, e3, e4⟩ := prep_recovering _ _ _ h
      refine ⟨0, T + 1, precede s S, rfl, e1, by omega, hh, by simp, e2, fun t h1 h2 => ?_,
        fun t ht => ?_⟩
      · match t with
        | t + 1 => exact e3 t (by omega)
      · match t with
        | 0 => change Sim.testStep m fuel c Sim.drAllow s _ = .ok (S 0); rw [e0]; exact h1
        | t + 1 =>
          have := e4 t (by omega)
          simpa [precede] using this
    | false =>
      rw [hh] at h
      simp only [Sim.prepNext, Bool.false_eq_true, if_false] at h
      rw [bind_ok_iff] at h
      obtain ⟨s1, h1, h⟩ := h
      obtain ⟨b, T, S, e0, e1, e2, e3, e4, e5, e6, e7⟩ := ih _ _ h
      refine ⟨b + 1, T + 1, precede s S, rfl, e1, by omega, e3, fun t ht => ?_, e5, fun t h1 h2 => ?_,
        fun t ht => ?_⟩
      · match t with
        | 0 => exact hh
        | t + 1 => exact e4 t (by omega)
      · match t with
        | t + 1 => exact e6 t (by omega) (by omega)
      · match t with
        | 0 =>
          change Sim.testStep m fuel c Sim.drAllow s _ = .ok (S 0)
          rw [e0]
          simpa [precede] using h1
        | t + 1 =>
          have := e7 t (by omega)
          simpa [precede] using this

theorem prep_waiting {m : Libm} {fuel : ℕ} {c : TestConditions} {flow : ℚ} :
    ∀ (limit : ℕ) (s s' : Sim n k),
    Sim.prepLoop m fuel c flow limit s .waitOff false = .ok s' →
    ∃ (a b T : ℕ) (S : ℕ → Sim n k), S 0 = s ∧ S (T + 1) = s' ∧ a < b ∧ b < T ∧
      (∀ t < a, (S t).isHeating = true) ∧ (∀ t, a ≤ t → t < b → (S t).isHeating = false) ∧
      (∀ t, b ≤ t → t < T → (S t).isHeating = true) ∧ (S T).isHeating = false ∧
      ∀ t ≤ T, Sim.testStep m fuel c Sim.drAllow (S t)
        ((S t).limitDraw flow (decide (a ≤ t ∧ t < b))) = .ok (S (t + 1)) := by
  intro limit
  induction limit with
  | zero => intro s s' h; cases h
  | succ limit ih =>
    intro s s' h
    rw [Sim.prepLoop] at h
    cases hh : s.isHeating with
    | false =>
      rw [hh] at h
      simp only [Sim.prepNext, Bool.not_false, if_true, Bool.false_eq_true, if_false] at h
      rw [bind_ok_iff] at h
      obtain ⟨s1, h1, h⟩ := h
      obtain ⟨b, T, S, e0, e1, e2, e3, e4, e5, e6, e7⟩ := prep_drawing _ _ _ h
      refine ⟨0, b + 1, T + 1, precede s S, rfl, e1, by omega, by omega, by simp, fun t _ ht => ?_,
        fun t h1 h2 => ?_, e5, fun t ht => ?_⟩
      · match t with
        | 0 => exact hh
        | t + 1 => exact e4 t (by omega)
      · match t with
        | t + 1 =>
          rcases Nat.eq_or_lt_of_le (Nat.le_of_succ_le_succ h1) with rfl | h3
          · exact e3
          · exact e6 t h3 (by omega)
      · match t with
        | 0 =>
          change Sim.testStep m fuel c Sim.drAllow s _ = .ok (S 0)
          rw [e0]
          simpa [precede] using h1
        | t + 1 =>
          have := e7 t (by omega)
          simpa [precede] using this
    | true =>
      rw [hh] at h
      simp only [Sim.prepNext, Bool.not_true, Bool.false_eq_true, if_false] at h
      rw [bind_ok_iff] at h
      obtain ⟨s1, h1, h⟩ := h
      obtain ⟨a, b, T, S, e0, e1, e2, e3, e4, e5, e6, e7, e8⟩ := ih _ _ h
      refine ⟨a + 1, b + 1, T + 1, precede s S, rfl, e1, by omega, by omega, fun t ht => ?_,
        fun t h1 h2 => ?_, fun t h1 h2 => ?_, e7, fun t ht => ?_⟩
      · match t with
        | 0 => exact hh
        | t + 1 => exact e4 t (by omega)
      · match t with
        | t + 1 => exact e5 t (by omega) (by omega)
      · match t with
        | t + 1 => exact e6 t (by omega) (by omega)
      · match t with
        | 0 =>
          change Sim.testStep m fuel c Sim.drAllow s _ = .ok (S 0)
          rw [e0]
          simpa [precede] using h1
        | t + 1 =>
          have := e8 t (by omega)
          simpa [precede] using this

/-- **C66.** When the preparation of a test ends, it consisted of: waiting until the heat is off, drawing
at 3 gallons a minute (1.5 from tanks below 20 gallons, and never more than the tank holds) until the heat
comes on, waiting without a draw until it is off again, and one more minute. -/
theorem C66_prepared (m : Libm) (fuel limit : ℕ) (c : TestConditions) (s s' : Sim n k)
    (hu : Usable s) (h : s.prepareForTest m fuel limit c = .ok s') :
    ∃ (a b T : ℕ) (S : ℕ → Sim n k), S 0 = s ∧ S (T + 1) = s' ∧ a < b ∧ b < T ∧
      (∀ t < a, (S t).isHeating = true) ∧ (∀ t, a ≤ t → t < b → (S t).isHeating = false) ∧
      (∀ t, b ≤ t → t < T → (S t).isHeating = true) ∧ (S T).isHeating = false ∧
      ∀ t ≤ T, TestMinute m fuel c noSignal
        (if a ≤ t ∧ t < b then
          min (if s.tank.volume_L < galLitres 20 then galLitres (3 / 2) else galLitres 3) s.tank.volume_L
         else 0) (S t) (S (t + 1)) := by
  obtain ⟨a, b, T, S, e0, e1, e2, e3, e4, e5, e6, e7, e8⟩ := prep_waiting _ _ _ h
  refine ⟨a, b, T, S, e0, e1, e2, e3, e4, e5, e6, e7, ?_⟩
  have hflow : s.testFlow = if s.tank.volume_L < galLitres 20 then galLitres (3 / 2) else galLitres 3 := rfl
  have hpos : 0 < s.testFlow := by
    rw [hflow]
    split_ifs <;> norm_num [galLitres]
  have hlim : ∀ (x : Sim n k) (p : Prop) [Decidable p], 0 < x.tank.volume_L →
      x.limitDraw s.testFlow (decide p) = if p then min s.testFlow x.tank.volume_L else 0 := by
    intro x p _ hx
    unfold Sim.limitDraw
    by_cases hp : p
    · simp only [hp, decide_true, if_true, mul_one]
      split_ifs with hh
      · rw [min_eq_right hh.le]
      · rw [min_eq_left (not_lt.mp hh)]
    · simp only [hp, decide_false, Bool.false_eq_true, if_false]
      rw [if_neg (not_lt.mpr hx.le)]
  have key : ∀ t ≤ T + 1, Usable (S t) ∧ (S t).tank.volume_L = s.tank.volume_L := by
    intro t
    induction t with
    | zero => intro _; rw [e0]; exact ⟨hu, rfl⟩
    | succ t ih =>
      intro ht
      obtain ⟨i1, i2⟩ := ih (by omega)
      have := e8 t (by omega)
      rw [hlim _ _ i1.1.volume_pos] at this
      obtain ⟨j1, j2⟩ := (usable_kept m fuel c).step Sim.drAllow _ _ _ i1 (by
        split_ifs
        · exact le_min hpos.le i1.1.volume_pos.le
        · exact le_rfl) this
      exact ⟨j1, j2.trans i2⟩
  intro t ht
  have := e8 t ht
  rw [hlim _ _ (key t (by omega)).1.1.volume_pos, (key t (by omega)).2, hflow] at this
  exact this

/-! ## C64: the day of the test -/

theorem prescribed_nonneg {V : ℚ} (hV : 0 < V) {pattern : List Draw} (hs : Sensible pattern) (t : ℕ) :
    0 ≤ prescribed V pattern t := by
  apply List.sum_nonneg
  intro y hy
  rw [List.mem_map] at hy
  obtain ⟨x, hx, rfl⟩ := hy
  exact (drawnIn_bounds hV (hs _ (begins_ge V pattern 0 x hx).2).2 t).1

/-- While a draw goes on, something is drawn in each minute and something remains. -/
def Flowing (q : Sim.Schedule) : Prop :=
  Sensible q.todo ∧ (q.isDrawing = true → 0 < q.step_L ∧ 0 < q.remaining_L ∧ q.ready = false)

theorem flowing_start {V u : ℚ} (hV : 0 < V) {q : Sim.Schedule} (h : Flowing q) :
    Flowing (q.start V u) := by
  obtain ⟨h1, h2⟩ := h
  unfold Sim.Schedule.start
  split_ifs with hr
  · split
    · exact ⟨h1, h2⟩
    · rename_i d ds e
      split_ifs with ht hf
      · refine ⟨fun x hx => h1 x (by rw [e]; exact List.mem_cons_of_mem _ hx), fun _ => ⟨hV, ?_, rfl⟩⟩
        exact galLitres_pos (h1 d (by rw [e]; exact List.mem_cons_self)).1
      · refine ⟨fun x hx => h1 x (by rw [e]; exact List.mem_cons_of_mem _ hx), fun _ => ⟨?_, ?_, rfl⟩⟩
        · have := galLitres_pos (h1 d (by rw [e]; exact List.mem_cons_self)).2
          change 0 < galLitres _ * 1
          linarith
        · exact galLitres_pos (h1 d (by rw [e]; exact List.mem_cons_self)).1
      · exact ⟨h1, h2⟩
  · exact ⟨h1, h2⟩

theorem flowing_limit {q : Sim.Schedule} (h : Flowing q) :
    Flowing q.limit ∧ (q.isDrawing = false ↔ q.limit.step_L = 0) := by
  obtain ⟨h1, h2⟩ := h
  unfold Sim.Schedule.limit
  split_ifs with a b
  · obtain ⟨b1, b2, -⟩ := h2 a
    exact ⟨⟨h1, by simp⟩, by simp [a, b2.ne']⟩
  · obtain ⟨b1, b2, b3⟩ := h2 a
    exact ⟨⟨h1, fun _ => ⟨b1, by simp only; linarith, b3⟩⟩, by simp [a, b1.ne']⟩
  · exact ⟨⟨h1, by simp [a]⟩, by simp [a]⟩

theorem flowing_after {V : ℚ} (hV : 0 < V) {pattern : List Draw} (hs : Sensible pattern) (t : ℕ) :
    Flowing (scheduleAfter V pattern t) := by
  induction t with
  | zero => exact ⟨hs, by simp [scheduleAfter, Sim.Schedule.init]⟩
  | succ t ih => exact (flowing_limit (flowing_start hV ih)).1

/-- A draw goes on beyond minute `t` exactly if water is drawn in this minute and in the next. -/
theorem drawing_iff {V : ℚ} (hV : 0 < V) {pattern : List Draw} (hs : Sensible pattern) (t : ℕ) :
    (scheduleAfter V pattern (t + 1)).isDrawing = true ↔
      prescribed V pattern t ≠ 0 ∧ prescribed V pattern (t + 1) ≠ 0 := by
  have hf := flowing_after hV hs
  have h1 := (flowing_limit (flowing_start (u := (t : ℚ)) hV (hf t))).2
  have h2 := (flowing_limit (flowing_start (u := ((t + 1 : ℕ) : ℚ)) hV (hf (t + 1)))).2
  have e1 : ((scheduleAfter V pattern t).start V t).limit.step_L = prescribed V pattern t :=
    C51_schedule V hV pattern hs t
  have e2 : ((scheduleAfter V pattern (t + 1)).start V ((t + 1 : ℕ) : ℚ)).limit.step_L =
      prescribed V pattern (t + 1) := C51_schedule V hV pattern hs (t + 1)
  rw [e1] at h1
  rw [e2] at h2
  have hstart : (scheduleAfter V pattern (t + 1)).ready = false →
      (scheduleAfter V pattern (t + 1)).start V ((t + 1 : ℕ) : ℚ) = scheduleAfter V pattern (t + 1) := by
    intro h; simp [Sim.Schedule.start, h]
  constructor
  · intro h
    obtain ⟨a, -, b⟩ := (hf (t + 1)).2 h
    rw [C51_schedule V hV pattern hs t] at a
    refine ⟨a.ne', fun h0 => ?_⟩
    have := h2.mpr h0
    rw [hstart b, h] at this
    cases this
  · rintro ⟨ha, hb⟩
    by_contra hc
    rw [Bool.not_eq_true] at hc
    have hd : ((scheduleAfter V pattern t).start V t).isDrawing = true := by
      by_contra h; rw [Bool.not_eq_true] at h; exact ha (h1.mp h)
    have hr := ((flowing_start (u := (t : ℚ)) hV (hf t)).2 hd).2.2
    have hr' : (scheduleAfter V pattern (t + 1)).ready = false := by
      change (((scheduleAfter V pattern t).start V t).limit).ready = false
      unfold Sim.Schedule.limit
      split_ifs <;> exact hr
    apply hb
    apply h2.mp
    rw [hstart hr', hc]

/-- What one minute of the test writes down. -/
def recordOf (c : TestConditions) (t : ℕ) (v : ℚ) (s : Sim n k) : Sim.TestRecord k :=
  ⟨t, c.inletT, v, s.tank.outletT, fun i => (s.st i).energyInput_kWh,
    fun i => (s.st i).energyOutput_kWh, c.ambientT, s.setpoint, s.thermocouples⟩

theorem day_loop {m : Libm} {fuel : ℕ} {c : TestConditions} {P : Sim n k → Prop}
    (hP : Kept m fuel c P) {V : ℚ} (hV : 0 < V) {pattern : List Draw} (hs : Sensible pattern)
    (T0 : ℚ) : ∀ (count t : ℕ) (d d' : Sim.Day n k), P d.sim → d.sim.tank.volume_L = V →
    d.schedule = scheduleAfter V pattern t → Sim.Day.loop m fuel c T0 t count d = .ok d' →
    ∃ S : ℕ → Sim n k, S 0 = d.sim ∧ S count = d'.sim ∧
      (∀ i < count, P (S i) ∧ (S i).tank.volume_L = V ∧
        TestMinute m fuel c noSignal (prescribed V pattern (t + i)) (S i) (S (i + 1))) ∧
      P d'.sim ∧ d'.sim.tank.volume_L = V ∧
      d'.schedule = scheduleAfter V pattern (t + count) ∧
      d'.sums.removed_L = d.sums.removed_L + ∑ i ∈ Finset.range count, prescribed V pattern (t + i) ∧
      d'.sums.outletVolumeT = d.sums.outletVolumeT +
        ∑ i ∈ Finset.range count, prescribed V pattern (t + i) * (S (i + 1)).tank.outletT ∧
      d'.sums.inletVolumeT = d.sums.inletVolumeT +
        ∑ i ∈ Finset.range count, prescribed V pattern (t + i) * c.inletT ∧
      d'.sums.delivered_kJ = d.sums.delivered_kJ + ∑ i ∈ Finset.range count,
        waterHeat (prescribed V pattern (t + i)) ((S (i + 1)).tank.outletT - c.inletT) ∧
      d'.sums.used_kJ = d.sums.used_kJ +
        ∑ i ∈ Finset.range count, 3600 * ∑ j, ((S (i + 1)).st j).energyInput_kWh ∧
      (d'.sums.hasHeated = true ↔ d.sums.hasHeated = true ∨ ∃ i < count, (S (i + 1)).isHeating = true) ∧
      d'.sums.noDraw_min = d.sums.noDraw_min +
        ((Finset.range count).filter fun i => prescribed V pattern (t + i) = 0).card ∧
      d'.sums.noDrawAmbientT = d.sums.noDrawAmbientT +
        ((Finset.range count).filter fun i => prescribed V pattern (t + i) = 0).card * c.ambientT ∧
      d'.records = d.records ++ (List.range count).map
        (fun i => recordOf c (t + i) (prescribed V pattern (t + i)) (S (i + 1))) ∧
      ∃ (Q : ℕ → Sim.DayPhases) (H : ℕ → Bool), Q 0 = d.phases ∧ Q count = d'.phases ∧
        ∀ i < count, (H i = true ↔ d.sums.hasHeated = true ∨ ∃ j ≤ i, (S (j + 1)).isHeating = true) ∧
          Q (i + 1) = (Q i).next (S (i + 1)) c T0 ((t + i : ℕ) : ℚ) (prescribed V pattern (t + i))
            (3600 * ∑ j, ((S (i + 1)).st j).energyInput_kWh)
            (decide (prescribed V pattern (t + i) ≠ 0 ∧ prescribed V pattern (t + i + 1) ≠ 0)) (H i) := by
  have hk : ∀ x, KWH_TO_KJ x = 3600 * x := fun x => by
    norm_num [KWH_TO_KJ, secPerHr, secPerMin, minPerHr]; ring
  intro count
  induction count with
  | zero =>
    intro t d d' hp hvol hq h
    obtain rfl := Except.ok.inj h
    exact ⟨fun _ => d.sim, rfl, rfl, by simp, hp, hvol, hq, by simp, by simp, by simp, by simp, by simp,
      by simp, by simp, by simp, by simp, fun _ => d.phases, fun _ => true, rfl, rfl, by simp⟩
  | succ count ih =>
    intro t d d' hp hvol hq h
    rw [Sim.Day.loop, bind_ok_iff] at h
    obtain ⟨d1, h1, h⟩ := h
    rw [Sim.Day.minute, bind_ok_iff] at h1
    obtain ⟨s1, h1, e⟩ := h1
    have e := Except.ok.inj e
    have hq1 : (d.schedule.start d.sim.tank.volume_L t).limit = scheduleAfter V pattern (t + 1) := by
      rw [hvol, hq]; rfl
    have hstep : (d.schedule.start d.sim.tank.volume_L t).limit.step_L = prescribed V pattern t := by
      rw [hq1, C51_schedule V hV pattern hs t]
    have hdraw : (d.schedule.start d.sim.tank.volume_L t).isDrawing = false ↔
        prescribed V pattern t = 0 := by
      rw [← hstep, hvol, hq]
      exact (flowing_limit (flowing_start hV (flowing_after hV hs t))).2
    rw [hstep] at h1 e
    obtain ⟨p1, v1⟩ := hP.step _ _ _ _ hp (prescribed_nonneg hV hs t) h1
    subst e
    obtain ⟨S, a0, a1, a2, a3, a4, a5, b1, b2, b3, b4, b5, b6, b7, b8, b9, Q, H, c0, c1, c2⟩ :=
      ih (t + 1) _ d' p1 (v1.trans hvol) hq1 h
    have ht : ∀ i, t + 1 + i = t + (i + 1) := fun i => by omega
    simp only [ht, Sim.DaySums.add] at a2 b1 b2 b3 b4 b5 b6 b7 b8 b9 c0 c2
    have hcard : ((Finset.range (count + 1)).filter fun i => prescribed V pattern (t + i) = 0).card =
        (if prescribed V pattern t = 0 then 1 else 0) +
        ((Finset.range count).filter fun i => prescribed V pattern (t + (i + 1)) = 0).card := by
      rw [Finset.card_filter, Finset.card_filter, Finset.sum_range_succ', add_comm]
      rfl
    refine ⟨precede d.sim S, rfl, a1, fun i hi => ?_, a3, a4, by rw [a5, ht],
      ?_, ?_, ?_, ?_, ?_, ?_, ?_, ?_, ?_, fun i => match i with | 0 => d.phases | i + 1 => Q i,
      fun i => match i with | 0 => d.sums.hasHeated || s1.isHeating | i + 1 => H i, rfl, c1,
      fun i hi => ?_⟩
    · match i with
      | 0 =>
        refine ⟨hp, hvol, ?_⟩
        change TestMinute m fuel c noSignal _ d.sim (S 0)
        rw [a0]
        exact h1
      | i + 1 => exact a2 i (by omega)
    · rw [b1, Finset.sum_range_succ']; simp only [Nat.add_zero]; ring
    · rw [b2, Finset.sum_range_succ']; simp only [Nat.add_zero, precede, a0]; ring
    · rw [b3, Finset.sum_range_succ']; simp only [Nat.add_zero]; ring
    · rw [b4, Finset.sum_range_succ']
      simp only [Nat.add_zero, precede, a0, waterHeat, cpWater, rhoWater]; ring
    · rw [b5, Finset.sum_range_succ']
      simp only [precede, a0, hk, ← Finset.mul_sum]; ring
    · rw [b6]
      simp only [Bool.or_eq_true]
      constructor
      · rintro ((h | h) | ⟨i, hi, h⟩)
        · exact .inl h
        · exact .inr ⟨0, by omega, by change (S 0).isHeating = true; rw [a0]; exact h⟩
        · exact .inr ⟨i + 1, by omega, h⟩
      · rintro (h | ⟨i, hi, h⟩)
        · exact .inl (.inl h)
        · match i with
          | 0 => exact .inl (.inr (by change (S 0).isHeating = true at h; rw [a0] at h; exact h))
          | i + 1 => exact .inr ⟨i, by omega, h⟩
    · rw [b7, hcard]
      by_cases hz : prescribed V pattern t = 0
      · rw [hdraw.mpr hz, if_pos hz]; simp only [Bool.false_eq_true, if_false]; omega
      · rw [Bool.eq_true_of_not_eq_false (hdraw.not.mpr hz), if_neg hz]
        simp only [if_true]; omega
    · rw [b8, hcard]
      by_cases hz : prescribed V pattern t = 0
      · rw [hdraw.mpr hz, if_pos hz]; simp only [Bool.false_eq_true, if_false]; push_cast; ring
      · rw [Bool.eq_true_of_not_eq_false (hdraw.not.mpr hz), if_neg hz]
        simp only [if_true]; push_cast; ring
    · rw [b9, List.range_succ_eq_map, List.map_cons, List.map_map, List.append_assoc]
      simp only [recordOf, Nat.add_zero, precede, a0]
      rfl
    · match i with
      | 0 =>
        refine ⟨?_, ?_⟩
        · simp only [Bool.or_eq_true, Nat.le_zero, exists_eq_left, precede, a0]
        · simp only [Nat.add_zero, precede, a0, c0]
          rw [hq1, zero_add, Finset.mul_sum, Finset.sum_congr rfl fun j _ => hk (s1.st j).energyInput_kWh]
          congr 1
          rw [Bool.eq_iff_iff, decide_eq_true_eq]
          exact drawing_iff hV hs t
      | i + 1 =>
        obtain ⟨f1, f2⟩ := c2 i (by omega)
        refine ⟨?_, f2⟩
        simp only
        rw [f1]
        simp only [Bool.or_eq_true]
        constructor
        · rintro ((h | h) | ⟨j, hj, h⟩)
          · exact .inl h
          · exact .inr ⟨0, by omega, by change (S 0).isHeating = true; rw [a0]; exact h⟩
          · exact .inr ⟨j + 1, by omega, h⟩
        · rintro (h | ⟨j, hj, h⟩)
          · exact .inl (.inl h)
          · match j with
            | 0 => exact .inl (.inr (by change (S 0).isHeating = true at h; rw [a0] at h; exact h))
            | j + 1 => exact .inr ⟨j, by omega, h⟩

theorem idle_keeps {m : Libm} {fuel : ℕ} {c : TestConditions} {P : Sim n k → Prop}
    (hP : Kept m fuel c P) : ∀ (limit pre : ℕ) (on : Bool) (s : Sim n k) (l : List (Sim.TestRecord k))
    (r : Sim n k × ℕ × List (Sim.TestRecord k)), P s →
    Sim.idleLoop m fuel c limit pre on s l = .ok r → P r.1 ∧ r.1.tank.volume_L = s.tank.volume_L := by
  intro limit
  induction limit with
  | zero => intro pre on s l r _ h; cases h
  | succ limit ih =>
    intro pre on s l r hp h
    rw [Sim.idleLoop] at h
    split_ifs at h with hc
    · rw [bind_ok_iff] at h
      obtain ⟨s1, h1, h⟩ := h
      obtain ⟨p1, v1⟩ := hP.step _ _ _ _ hp le_rfl h1
      obtain ⟨p2, v2⟩ := ih _ _ _ _ _ p1 h
      exact ⟨p2, v2.trans v1⟩
    · obtain rfl := Except.ok.inj h
      exact ⟨hp, rfl⟩

theorem prep_keeps {m : Libm} {fuel : ℕ} {c : TestConditions} {P : Sim n k → Prop}
    (hP : Kept m fuel c P) (flow : ℚ) (hf : 0 ≤ flow) : ∀ (limit : ℕ) (s s' : Sim n k)
    (phase : Sim.PrepPhase) (d : Bool), P s → Sim.prepLoop m fuel c flow limit s phase d = .ok s' →
    P s' ∧ s'.tank.volume_L = s.tank.volume_L := by
  intro limit
  induction limit with
  | zero => intro s s' phase d _ h; cases h
  | succ limit ih =>
    intro s s' phase d hp h
    rw [Sim.prepLoop, bind_ok_iff] at h
    obtain ⟨s1, h1, h⟩ := h
    have hnn : 0 ≤ s.limitDraw flow (Sim.prepNext s.isHeating phase d).2.1 := by
      have := hP.volume s hp
      unfold Sim.limitDraw
      simp only
      split_ifs <;> linarith
    obtain ⟨p1, v1⟩ := hP.step _ _ _ _ hp hnn h1
    split_ifs at h with hc
    · obtain rfl := Except.ok.inj h
      exact ⟨p1, v1⟩
    · obtain ⟨p2, v2⟩ := ih _ _ _ _ p1 h
      exact ⟨p2, v2.trans v1⟩

/-- The parts of a 24-hour test that returned. -/
theorem day_parts {m : Libm} {fuel limit : ℕ} {c : TestConditions} {des : Designation}
    {s s' : Sim n k} {r : Sim.TestSummary k} {P : Sim n k → Prop} (hP : Kept m fuel c P)
    (hs : ∀ s1, s.applyTestSetpoint = .ok s1 → P s1)
    (h : s.run24hrTest m fuel limit c des = .ok (s', r)) :
    ∃ (s2 : Sim n k) (before : List (Sim.TestRecord k)) (d : Sim.Day n k), P s2 ∧
      s2.tank.volume_L = s.tank.volume_L ∧
      Sim.Day.loop m fuel c s2.averageT 0 1441 (Sim.Day.init des s2 before) = .ok d ∧
      Sim.summarize des s2.averageT d d.records = .ok r ∧ s' = d.sim := by
  unfold Sim.run24hrTest at h
  rw [bind_ok_iff] at h
  obtain ⟨s1, h1, h⟩ := h
  rw [bind_ok_iff] at h
  obtain ⟨s2, h2, h⟩ := h
  rw [bind_ok_iff] at h
  obtain ⟨x, h3, h⟩ := h
  simp only at h
  rw [bind_ok_iff] at h
  obtain ⟨d, h4, h⟩ := h
  rw [bind_ok_iff] at h
  obtain ⟨r', h5, h⟩ := h
  have h := Except.ok.inj h
  rw [Prod.mk.injEq] at h
  obtain ⟨rfl, rfl⟩ := h
  have hv : s1.tank = s.tank := by
    unfold Sim.applyTestSetpoint Sim.setSetpoint at h1
    split_ifs at h1 <;> (obtain rfl := Except.ok.inj h1; rfl)
  have hf : 0 ≤ s1.testFlow := by
    unfold Sim.testFlow
    split_ifs <;> norm_num [GAL_TO_L, LPerGal]
  obtain ⟨p2, v2⟩ := prep_keeps hP _ hf _ _ _ _ _ (hs s1 h1) h2
  obtain ⟨p3, v3⟩ := idle_keeps hP _ _ _ _ _ _ p2 h3
  exact ⟨x.1, _, d, p3, by rw [v3, v2, hv], h4, h5, rfl⟩

/-- Electricity used in one minute of the test (kJ). -/
def usedIn (S : ℕ → Sim n k) (t : ℕ) : ℚ := 3600 * ∑ j, ((S (t + 1)).st j).energyInput_kWh

/-- Heat delivered in one minute of the test (kJ). -/
def deliveredIn (c : TestConditions) (v : ℕ → ℚ) (S : ℕ → Sim n k) (t : ℕ) : ℚ :=
  waterHeat (v t) ((S (t + 1)).tank.outletT - c.inletT)

/-- At the end of minute `t` no draw is going on, the system has heated, and it no longer does. -/
def Recovered (v : ℕ → ℚ) (S : ℕ → Sim n k) (t : ℕ) : Prop :=
  ¬ (v t ≠ 0 ∧ v (t + 1) ≠ 0) ∧ (∃ u ≤ t, (S (u + 1)).isHeating = true) ∧
    (S (t + 1)).isHeating = false

theorem next_prev (p : Sim.DayPhases) (s : Sim n k) (c : TestConditions) (T0 t v u : ℚ) (a b : Bool) :
    (p.next s c T0 t v u a b).prevTankT = s.averageT := rfl

/-- After the first recovery its figures no longer change. -/
theorem next_after (p : Sim.DayPhases) (s : Sim n k) (c : TestConditions) (T0 t v u : ℚ) (a b : Bool)
    (h : p.firstRecovery = false) :
    (p.next s c T0 t v u a b).firstRecovery = false ∧
    (p.next s c T0 t v u a b).recoveryStored_kJ = p.recoveryStored_kJ ∧
    (p.next s c T0 t v u a b).recoveryDelivered_kJ = p.recoveryDelivered_kJ ∧
    (p.next s c T0 t v u a b).recoveryUsed_kJ = p.recoveryUsed_kJ := by
  unfold Sim.DayPhases.next
  simp only [h, Bool.false_eq_true, if_false]
  split_ifs <;> (refine ⟨?_, rfl, rfl, rfl⟩; first | exact h | rfl)

theorem recovery_phases {c : TestConditions} {V T0 : ℚ} {v : ℕ → ℚ} {S : ℕ → Sim n k}
    {Q : ℕ → Sim.DayPhases} {H : ℕ → Bool} {count : ℕ} (hT0 : T0 = (S 0).averageT)
    (h0 : Q 0 = (Sim.Day.init .low (S 0) ([] : List (Sim.TestRecord k))).phases)
    (hvol : ∀ i ≤ count, (S i).tank.volume_L = V)
    (hn : ∀ i < count, (H i = true ↔ ∃ j ≤ i, (S (j + 1)).isHeating = true) ∧
      Q (i + 1) = (Q i).next (S (i + 1)) c T0 (i : ℚ) (v i) (usedIn S i)
        (decide (v i ≠ 0 ∧ v (i + 1) ≠ 0)) (H i)) :
    ∀ i ≤ count, (Q i).prevTankT = (S i).averageT ∧
      (((Q i).firstRecovery = true ∧ (Q i).recoveryStored_kJ = 0 ∧ (Q i).recoveryDelivered_kJ = 0 ∧
        (Q i).recoveryUsed_kJ = ∑ j ∈ Finset.range i, usedIn S j ∧
        (Q i).recoveryOutletVolumeT = ∑ j ∈ Finset.range i, v j * (S (j + 1)).tank.outletT ∧
        (Q i).recoveryInletVolumeT = ∑ j ∈ Finset.range i, v j * c.inletT ∧
        ∀ j < i, ¬ Recovered v S j) ∨
      ((Q i).firstRecovery = false ∧ ∃ R < i, Recovered v S R ∧ (∀ j < R, ¬ Recovered v S j) ∧
        (Q i).recoveryStored_kJ = waterHeat V ((S R).averageT - (S 0).averageT) ∧
        (Q i).recoveryDelivered_kJ = ∑ j ∈ Finset.range (R + 1), deliveredIn c v S j ∧
        (Q i).recoveryUsed_kJ = ∑ j ∈ Finset.range (R + 1), usedIn S j)) := by
  intro i
  induction i with
  | zero =>
    intro _
    rw [h0]
    exact ⟨rfl, .inl ⟨rfl, rfl, rfl, by simp [Sim.Day.init], by simp [Sim.Day.init],
      by simp [Sim.Day.init], by simp⟩⟩
  | succ i ih =>
    intro hi
    obtain ⟨ih1, ih2⟩ := ih (by omega)
    obtain ⟨hH, hQ⟩ := hn i (by omega)
    refine ⟨by rw [hQ]; rfl, ?_⟩
    rcases ih2 with ⟨a1, a2, a3, a4, a5, a6, a7⟩ | ⟨a1, R, hR, a2, a3, a4, a5, a6⟩
    · by_cases hrec : Recovered v S i
      · right
        have hcond : (!decide (v i ≠ 0 ∧ v (i + 1) ≠ 0) && (H i && !(S (i + 1)).isHeating)) = true := by
          obtain ⟨r1, r2, r3⟩ := hrec
          rw [hH.mpr r2, r3, decide_eq_false r1]; rfl
        rw [hQ]
        unfold Sim.DayPhases.next
        simp only [a1, if_true]
        unfold Sim.DayPhases.recover
        simp only [hcond, if_true]
        refine ⟨trivial, i, by omega, hrec, a7, ?_, ?_, ?_⟩
        · rw [hvol (i + 1) hi, ih1, hT0]
          unfold waterHeat cpWater rhoWater; rfl
        · have e : ∑ j ∈ Finset.range i, deliveredIn c v S j = cpWater * rhoWater *
              (∑ j ∈ Finset.range i, v j * (S (j + 1)).tank.outletT -
                ∑ j ∈ Finset.range i, v j * c.inletT) := by
            rw [← Finset.sum_sub_distrib, Finset.mul_sum]
            refine Finset.sum_congr rfl fun j _ => ?_
            unfold deliveredIn waterHeat cpWater rhoWater
            ring
          rw [a5, a6, Finset.sum_range_succ, e]
          unfold deliveredIn waterHeat cpWater rhoWater
          ring
        · rw [a4, Finset.sum_range_succ]
      · left
        have hcond : ¬ (!decide (v i ≠ 0 ∧ v (i + 1) ≠ 0) && (H i && !(S (i + 1)).isHeating)) = true := by
          intro h
          apply hrec
          simp only [Bool.and_eq_true, Bool.not_eq_true', decide_eq_false_iff_not] at h
          exact ⟨h.1, hH.mp h.2.1, h.2.2⟩
        rw [hQ]
        unfold Sim.DayPhases.next
        simp only [a1, if_true]
        unfold Sim.DayPhases.recover
        simp only [hcond, Bool.false_eq_true, if_false]
        refine ⟨a1, a2, a3, ?_, ?_, ?_, fun j hj => ?_⟩
        · rw [a4, Finset.sum_range_succ]
        · rw [a5, Finset.sum_range_succ]
        · rw [a6, Finset.sum_range_succ]
        · rcases Nat.lt_succ_iff_lt_or_eq.mp hj with h | rfl
          · exact a7 j h
          · exact hrec
    · right
      obtain ⟨b1, b2, b3, b4⟩ := next_after (Q i) (S (i + 1)) c T0 i (v i) (usedIn S i)
        (decide (v i ≠ 0 ∧ v (i + 1) ≠ 0)) (H i) a1
      rw [hQ, b1, b2, b3, b4]
      exact ⟨rfl, R, by omega, a2, a3, a4, a5, a6⟩

/-- A day of the test: 1441 minutes, in each of which the volume prescribed for it is drawn. -/
def TestDay (m : Libm) (fuel : ℕ) (c : TestConditions) (v : ℕ → ℚ) (S : ℕ → Sim n k) : Prop :=
  ∀ t < 1441, TestMinute m fuel c noSignal (v t) (S t) (S (t + 1))

/-- Everything that is known of a test that returned, with its day. -/
theorem day_facts {m : Libm} {fuel limit : ℕ} {c : TestConditions} {des : Designation}
    {s s' : Sim n k} {r : Sim.TestSummary k} {P : Sim n k → Prop} (hP : Kept m fuel c P)
    (hs : ∀ s1, s.applyTestSetpoint = .ok s1 → P s1)
    (h : s.run24hrTest m fuel limit c des = .ok (s', r)) :
    ∃ (S : ℕ → Sim n k) (before : List (Sim.TestRecord k)) (d : Sim.Day n k),
      TestDay m fuel c (prescribed s.tank.volume_L (drawPatterns des)) S ∧ S 1441 = s' ∧
      0 < s.tank.volume_L ∧ (∀ t ≤ 1441, P (S t) ∧ (S t).tank.volume_L = s.tank.volume_L) ∧
      Sim.summarize des (S 0).averageT d d.records = .ok r ∧ d.sim = s' ∧
      d.sums.removed_L = ∑ t ∈ Finset.range 1441, prescribed s.tank.volume_L (drawPatterns des) t ∧
      d.sums.outletVolumeT = ∑ t ∈ Finset.range 1441,
        prescribed s.tank.volume_L (drawPatterns des) t * (S (t + 1)).tank.outletT ∧
      d.sums.inletVolumeT = ∑ t ∈ Finset.range 1441,
        prescribed s.tank.volume_L (drawPatterns des) t * c.inletT ∧
      d.sums.delivered_kJ = ∑ t ∈ Finset.range 1441,
        deliveredIn c (prescribed s.tank.volume_L (drawPatterns des)) S t ∧
      d.sums.used_kJ = ∑ t ∈ Finset.range 1441, usedIn S t ∧
      (d.sums.hasHeated = true ↔ ∃ t < 1441, (S (t + 1)).isHeating = true) ∧
      d.sums.noDraw_min = ((Finset.range 1441).filter
        fun t => prescribed s.tank.volume_L (drawPatterns des) t = 0).card ∧
      d.sums.noDrawAmbientT = ((Finset.range 1441).filter
        fun t => prescribed s.tank.volume_L (drawPatterns des) t = 0).card * c.ambientT ∧
      d.records = before ++ (List.range 1441).map
        (fun t => recordOf c t (prescribed s.tank.volume_L (drawPatterns des) t) (S (t + 1))) ∧
      d.phases.prevTankT = (S 1441).averageT ∧
      ((d.phases.recoveryStored_kJ = 0 ∧ d.phases.recoveryDelivered_kJ = 0) ∨
       ∃ R < 1441, Recovered (prescribed s.tank.volume_L (drawPatterns des)) S R ∧
        (∀ j < R, ¬ Recovered (prescribed s.tank.volume_L (drawPatterns des)) S j) ∧
        d.phases.recoveryStored_kJ =
          waterHeat s.tank.volume_L ((S R).averageT - (S 0).averageT) ∧
        d.phases.recoveryDelivered_kJ = ∑ j ∈ Finset.range (R + 1),
          deliveredIn c (prescribed s.tank.volume_L (drawPatterns des)) S j ∧
        d.phases.recoveryUsed_kJ = ∑ j ∈ Finset.range (R + 1), usedIn S j) := by
  obtain ⟨s2, before, d, p2, v2, h4, h5, e⟩ := day_parts hP hs h
  have hV : 0 < s.tank.volume_L := v2 ▸ hP.volume s2 p2
  obtain ⟨S, a0, a1, a2, a3, a4, a5, b1, b2, b3, b4, b5, b6, b7, b8, b9, Q, H, c0, c1, c2⟩ :=
    day_loop hP hV (C50_patterns des).1 s2.averageT 1441 0 _ d p2 v2 rfl h4
  simp only [Nat.zero_add] at a2 b1 b2 b3 b4 b5 b6 b7 b8 b9 c2
  have a0 : S 0 = s2 := a0
  have hvol : ∀ i ≤ 1441, P (S i) ∧ (S i).tank.volume_L = s.tank.volume_L := by
    intro i hi
    rcases Nat.lt_or_eq_of_le hi with hi | rfl
    · exact ⟨(a2 i hi).1, (a2 i hi).2.1⟩
    · rw [a1]; exact ⟨a3, a4⟩
  have hrec := recovery_phases (count := 1441) (c := c) (V := s.tank.volume_L) (T0 := s2.averageT)
    (v := prescribed s.tank.volume_L (drawPatterns des)) (S := S) (Q := Q) (H := H)
    (by rw [a0]) (by rw [c0, a0]; rfl) (fun i hi => (hvol i hi).2) (fun i hi => by
      obtain ⟨f1, f2⟩ := c2 i hi
      refine ⟨?_, f2⟩
      rw [f1]
      simp [Sim.Day.init]) 1441 le_rfl
  rw [c1] at hrec
  refine ⟨S, before, d, fun t ht => (a2 t ht).2.2, a1.trans e.symm, hV, hvol, by rw [a0]; exact h5,
    e.symm, ?_, ?_, ?_, ?_, ?_, ?_, ?_, ?_, b9, hrec.1, ?_⟩
  · rw [b1]; simp [Sim.Day.init]
  · rw [b2]; simp [Sim.Day.init]
  · rw [b3]; simp [Sim.Day.init]
  · rw [b4]; simp [Sim.Day.init, deliveredIn]
  · rw [b5]; simp [Sim.Day.init, usedIn]
  · rw [b6]; simp [Sim.Day.init]
  · rw [b7]; simp [Sim.Day.init]
  · rw [b8]; simp [Sim.Day.init]
  · rcases hrec.2 with ⟨-, x1, x2, -⟩ | ⟨-, R, y1, y2, y3, y4, y5, y6⟩
    · exact .inl ⟨x1, x2⟩
    · exact .inr ⟨R, y1, y2, y3, y4, y5, y6⟩

theorem close_facts (p : Sim.DayPhases) : p.close.efficiency = p.efficiency ∧
    p.close.prevTankT = p.prevTankT := by
  unfold Sim.DayPhases.close
  split_ifs <;> exact ⟨rfl, rfl⟩

theorem summarize_ok {des : Designation} {T0 : ℚ} {d : Sim.Day n k} {l : List (Sim.TestRecord k)}
    {r : Sim.TestSummary k} (h : Sim.summarize des T0 d l = .ok r) :
    d.sums.removed_L ≠ 0 ∧ r.designation = des ∧ r.removed_L = d.sums.removed_L ∧
    r.used_kJ = d.sums.used_kJ ∧
    r.delivered_kJ = d.sums.delivered_kJ ∧ r.records = l ∧
    r.averageOutletT = d.sums.outletVolumeT / d.sums.removed_L ∧
    r.averageInletT = d.sums.inletVolumeT / d.sums.removed_L ∧
    r.noDrawTotalTime_h = d.sums.noDraw_min / 60 ∧
    r.noDrawAverageAmbientT =
      (if d.sums.noDraw_min > 0 then d.sums.noDrawAmbientT / d.sums.noDraw_min else 0) ∧
    (r.qualifies = true → d.sums.hasHeated = true) ∧
    r.recoveryEfficiency = (if d.phases.recoveryUsed_kJ > 0 then
      (d.phases.recoveryStored_kJ + d.phases.recoveryDelivered_kJ) / d.phases.recoveryUsed_kJ else 0) ∧
    (0 < r.recoveryEfficiency →
      r.modifiedConsumed_kJ = r.used_kJ -
        waterHeat d.sim.tank.volume_L (d.phases.prevTankT - T0) / r.recoveryEfficiency -
        ((135 / 2 - 32) * (5 / 9) - r.noDrawAverageAmbientT) * r.standbyLossCoefficient *
          r.noDrawTotalTime_h +
        (waterHeat r.removed_L (75 * (5 / 9)) - r.delivered_kJ) / r.recoveryEfficiency) ∧
    (r.recoveryEfficiency ≤ 0 → r.modifiedConsumed_kJ = r.used_kJ -
        ((135 / 2 - 32) * (5 / 9) - r.noDrawAverageAmbientT) * r.standbyLossCoefficient *
          r.noDrawTotalTime_h) ∧
    (r.EF = if 0 < r.modifiedConsumed_kJ then
      waterHeat r.removed_L (75 * (5 / 9)) / r.modifiedConsumed_kJ else 0) ∧
    (r.annualConsumed_kJ = if 0 < r.EF then 365 * waterHeat r.removed_L (35 * (5 / 9)) / r.EF else 0) := by
  unfold Sim.summarize at h
  split_ifs at h with h0
  obtain rfl := Except.ok.inj h
  obtain ⟨e1, e2⟩ := close_facts d.phases
  refine ⟨h0, rfl, rfl, rfl, rfl, rfl, rfl, rfl, ?_, rfl, ?_, ?_, ?_, ?_, ?_, ?_⟩
  · change (d.sums.noDraw_min : ℚ) / minPerHr = _
    norm_num [minPerHr]
  · intro hq
    change (d.sums.hasHeated && !d.schedule.isDrawing) = true at hq
    simp only [Bool.and_eq_true] at hq
    exact hq.1
  · exact e1
  · intro he
    change 0 < d.phases.close.efficiency at he
    simp only [Sim.summaryOf, Sim.perEfficiency, if_pos he, e2]
    unfold waterHeat F_TO_C cpWater rhoWater offsetF FperC
    ring
  · intro he
    change d.phases.close.efficiency ≤ 0 at he
    simp only [Sim.summaryOf, Sim.perEfficiency, if_neg (not_lt.mpr he)]
    unfold F_TO_C offsetF FperC
    ring
  · have e : cpWater * rhoWater * d.sums.removed_L * (F_TO_C 125 - F_TO_C 50) =
        waterHeat d.sums.removed_L (75 * (5 / 9)) := by
      unfold waterHeat F_TO_C cpWater rhoWater offsetF FperC; ring
    simp only [Sim.summaryOf, e]
  · have e : 365 * (cpWater * rhoWater * d.sums.removed_L) * F_TO_C 67 =
        365 * waterHeat d.sums.removed_L (35 * (5 / 9)) := by
      unfold waterHeat F_TO_C cpWater rhoWater offsetF FperC; ring
    simp only [Sim.summaryOf, e]

/-- **C51.** The 24-hour test of any system draws, in each of the day's minutes, exactly what the pattern
of the usage class prescribes for a tank of this volume. **C64.** The summary's figures are those of this
day: volume, electricity, heat in the water drawn (beyond that of the inlet water), average temperatures
by volume, time without draws, and the records minute by minute. -/
theorem C64_day (m : Libm) (fuel limit : ℕ) (c : TestConditions) (des : Designation) (s s' : Sim n k)
    (r : Sim.TestSummary k) (hu : ∀ s1, s.applyTestSetpoint = .ok s1 → Usable s1)
    (h : s.run24hrTest m fuel limit c des = .ok (s', r)) :
    ∃ (S : ℕ → Sim n k) (before : List (Sim.TestRecord k)),
      TestDay m fuel c (prescribed s.tank.volume_L (drawPatterns des)) S ∧ S 1441 = s' ∧
      r.designation = des ∧
      r.removed_L = ∑ t ∈ Finset.range 1441, prescribed s.tank.volume_L (drawPatterns des) t ∧
      r.used_kJ = ∑ t ∈ Finset.range 1441, usedIn S t ∧
      r.delivered_kJ = ∑ t ∈ Finset.range 1441,
        deliveredIn c (prescribed s.tank.volume_L (drawPatterns des)) S t ∧
      r.averageInletT = c.inletT ∧
      r.averageOutletT * r.removed_L = ∑ t ∈ Finset.range 1441,
        prescribed s.tank.volume_L (drawPatterns des) t * (S (t + 1)).tank.outletT ∧
      r.noDrawTotalTime_h * 60 = ((Finset.range 1441).filter
        fun t => prescribed s.tank.volume_L (drawPatterns des) t = 0).card ∧
      (0 < r.noDrawTotalTime_h → r.noDrawAverageAmbientT = c.ambientT) ∧
      (r.qualifies = true → ∃ t < 1441, (S (t + 1)).isHeating = true) ∧
      r.records = before ++ (List.range 1441).map
        fun t => recordOf c t (prescribed s.tank.volume_L (drawPatterns des) t) (S (t + 1)) := by
  obtain ⟨S, before, d, a1, a2, -, -, a5, -, b1, b2, b3, b4, b5, b6, b7, b8, b9, -⟩ :=
    day_facts (usable_kept m fuel c) hu h
  obtain ⟨z, q1, q2, q3, q4, q5, q6, q7, q8, q9, q10, -⟩ := summarize_ok a5
  refine ⟨S, before, a1, a2, q1, by rw [q2, b1], by rw [q3, b5], by rw [q4, b4], ?_, ?_, ?_, ?_,
    fun hq => b6.mp (q10 hq), by rw [q5, b9]⟩
  · rw [q7, b3, ← Finset.sum_mul, ← b1, mul_div_cancel_left₀ _ z]
  · rw [q6, q2, div_mul_cancel₀ _ z, b2]
  · rw [q8, b7]; ring
  · intro hpos
    rw [q8] at hpos
    have hn : 0 < d.sums.noDraw_min := by
      by_contra h0
      have : d.sums.noDraw_min = 0 := by omega
      rw [this] at hpos
      norm_num at hpos
    rw [q9, if_pos hn, b8, b7]
    rw [b7] at hn
    exact mul_div_cancel_left₀ _ (by exact_mod_cast hn.ne')

/-- **C64.** From a tank of at least 3 gallons the test draws the nominal volume of the usage class. -/
theorem C64_nominal_volume (m : Libm) (fuel limit : ℕ) (c : TestConditions) (des : Designation)
    (s s' : Sim n k) (r : Sim.TestSummary k)
    (hu : ∀ s1, s.applyTestSetpoint = .ok s1 → Usable s1) (hV : galLitres 3 ≤ s.tank.volume_L)
    (h : s.run24hrTest m fuel limit c des = .ok (s', r)) :
    r.removed_L = galLitres (nominalGallons des) := by
  obtain ⟨S, before, -, -, -, e, -⟩ := C64_day m fuel limit c des s s' r hu h
  have hpos : 0 < s.tank.volume_L := lt_of_lt_of_le (by norm_num [galLitres]) hV
  rw [e, ← (C51_standard_patterns s.tank.volume_L hV des).2]
  exact Finset.sum_congr rfl fun t _ =>
    (C51_schedule s.tank.volume_L hpos _ (C50_patterns des).1 t).symm

/-- **C64.** Over the day the heat content of the tank changes by what the heat sources gave off, less the
heat reported as delivered, less the standby losses. -/
theorem C64_energy_balance (m : Libm) (hexp : ∀ x, 0 ≤ m.exp x) (fuel limit : ℕ) (c : TestConditions)
    (des : Designation) (s s' : Sim n k) (r : Sim.TestSummary k)
    (ha : ∀ s1, s.applyTestSetpoint = .ok s1 → s1.AlwaysAccountable)
    (h : s.run24hrTest m fuel limit c des = .ok (s', r)) :
    ∃ S : ℕ → Sim n k, TestDay m fuel c (prescribed s.tank.volume_L (drawPatterns des)) S ∧ S 1441 = s' ∧
      tankHeat s.tank.volume_L s'.tank.nodeTs = tankHeat s.tank.volume_L (S 0).tank.nodeTs +
        ∑ t ∈ Finset.range 1441, 3600 * ∑ j, ((S (t + 1)).st j).energyOutput_kWh - r.delivered_kJ -
        ∑ t ∈ Finset.range 1441, 3600 * (S (t + 1)).standbyLosses_kWh := by
  obtain ⟨S, before, d, a1, a2, hV, a4, a5, -, b1, b2, b3, b4, -⟩ :=
    day_facts (accountable_kept m hexp fuel c) ha h
  obtain ⟨-, -, -, -, q4, -⟩ := summarize_ok a5
  refine ⟨S, a1, a2, ?_⟩
  have key : ∀ t ≤ 1441, tankHeat s.tank.volume_L (S t).tank.nodeTs =
      tankHeat s.tank.volume_L (S 0).tank.nodeTs +
        ∑ u ∈ Finset.range t, 3600 * ∑ j, ((S (u + 1)).st j).energyOutput_kWh -
        ∑ u ∈ Finset.range t, deliveredIn c (prescribed s.tank.volume_L (drawPatterns des)) S u -
        ∑ u ∈ Finset.range t, 3600 * (S (u + 1)).standbyLosses_kWh := by
    intro t
    induction t with
    | zero => intro _; simp
    | succ t ih =>
      intro ht
      obtain ⟨i1, i2⟩ := a4 t (by omega)
      obtain ⟨-, -, e⟩ := testMinute_balance hexp i1
        (prescribed_nonneg hV (C50_patterns des).1 t) (a1 t (by omega))
      rw [i2, ih (by omega)] at e
      rw [e, Finset.sum_range_succ, Finset.sum_range_succ, Finset.sum_range_succ]
      unfold deliveredIn
      ring
  rw [← a2, key 1441 le_rfl, q4, b4]

/-! ## C65: the figures of merit -/

/-- **C65.** A recovery efficiency is reported only if the system recovered: it is the heat stored and
delivered until the first minute in which no draw goes on and the heat is off again, per electricity used
until then. (The stored heat is that before this minute.) -/
theorem C65_recovery_efficiency (m : Libm) (fuel limit : ℕ) (c : TestConditions) (des : Designation)
    (s s' : Sim n k) (r : Sim.TestSummary k)
    (hu : ∀ s1, s.applyTestSetpoint = .ok s1 → Usable s1)
    (h : s.run24hrTest m fuel limit c des = .ok (s', r)) (hr : r.recoveryEfficiency ≠ 0) :
    ∃ S : ℕ → Sim n k, TestDay m fuel c (prescribed s.tank.volume_L (drawPatterns des)) S ∧ S 1441 = s' ∧
      ∃ R < 1441, Recovered (prescribed s.tank.volume_L (drawPatterns des)) S R ∧
        (∀ t < R, ¬ Recovered (prescribed s.tank.volume_L (drawPatterns des)) S t) ∧
        0 < ∑ t ∈ Finset.range (R + 1), usedIn S t ∧
        r.recoveryEfficiency * ∑ t ∈ Finset.range (R + 1), usedIn S t =
          waterHeat s.tank.volume_L ((S R).averageT - (S 0).averageT) +
          ∑ t ∈ Finset.range (R + 1),
            deliveredIn c (prescribed s.tank.volume_L (drawPatterns des)) S t := by
  obtain ⟨S, before, d, a1, a2, hV, a4, a5, -, b1, b2, b3, b4, b5, b6, b7, b8, b9, -, b11⟩ :=
    day_facts (usable_kept m fuel c) hu h
  obtain ⟨-, -, -, -, -, -, -, -, -, -, -, q11, -⟩ := summarize_ok a5
  refine ⟨S, a1, a2, ?_⟩
  rw [q11] at hr ⊢
  have hused : 0 < d.phases.recoveryUsed_kJ := by
    by_contra hn
    rw [if_neg hn] at hr
    exact hr rfl
  rw [if_pos hused] at hr ⊢
  rcases b11 with ⟨e1, e2⟩ | ⟨R, hR, f1, f2, f3, f4, f5⟩
  · rw [e1, e2] at hr
    norm_num at hr
  · rw [f5] at hused
    exact ⟨R, hR, f1, f2, hused, by rw [f3, f4, f5, div_mul_cancel₀ _ hused.ne']⟩

/-- **C65.** The energy factor is the heat needed to raise the water drawn by 75 °F per electricity the day
would have taken under standard conditions: what was used, corrected by the change of the tank's heat
content, by the losses at 67.5 °F instead of the actual air temperature, and by heating from 50 °F to
125 °F instead of what was delivered. (Without a recovery only the correction of the losses is made.) -/
theorem C65_energy_factor (m : Libm) (fuel limit : ℕ) (c : TestConditions) (des : Designation)
    (s s' : Sim n k) (r : Sim.TestSummary k)
    (hu : ∀ s1, s.applyTestSetpoint = .ok s1 → Usable s1)
    (h : s.run24hrTest m fuel limit c des = .ok (s', r)) :
    ∃ S : ℕ → Sim n k, TestDay m fuel c (prescribed s.tank.volume_L (drawPatterns des)) S ∧ S 1441 = s' ∧
      (0 < r.recoveryEfficiency → r.modifiedConsumed_kJ = r.used_kJ -
        waterHeat s.tank.volume_L (s'.averageT - (S 0).averageT) / r.recoveryEfficiency -
        ((135 / 2 - 32) * (5 / 9) - r.noDrawAverageAmbientT) * r.standbyLossCoefficient *
          r.noDrawTotalTime_h +
        (waterHeat r.removed_L (75 * (5 / 9)) - r.delivered_kJ) / r.recoveryEfficiency) ∧
      (r.recoveryEfficiency ≤ 0 → r.modifiedConsumed_kJ = r.used_kJ -
        ((135 / 2 - 32) * (5 / 9) - r.noDrawAverageAmbientT) * r.standbyLossCoefficient *
          r.noDrawTotalTime_h) ∧
      (0 < r.modifiedConsumed_kJ →
        r.EF * r.modifiedConsumed_kJ = waterHeat r.removed_L (75 * (5 / 9))) ∧
      (r.modifiedConsumed_kJ ≤ 0 → r.EF = 0) := by
  obtain ⟨S, before, d, a1, a2, hV, a4, a5, a6, b1, b2, b3, b4, b5, b6, b7, b8, b9, b10, -⟩ :=
    day_facts (usable_kept m fuel c) hu h
  obtain ⟨-, -, -, -, -, -, -, -, -, -, -, -, q12, q12', q13, -⟩ := summarize_ok a5
  have hvol : d.sim.tank.volume_L = s.tank.volume_L := by
    rw [a6, ← a2]; exact (a4 1441 le_rfl).2
  refine ⟨S, a1, a2, fun he => ?_, q12', fun he => ?_, fun he => ?_⟩
  · rw [q12 he, b10, hvol, a2]
  · rw [q13, if_pos he, div_mul_cancel₀ _ he.ne']
  · rw [q13, if_neg (not_lt.mpr he)]

/-- **C65, what the code does instead.** The annual consumption is to be that of 365 days of raising the
water drawn by 67 °F at the energy factor. The code converts the difference of 67 °F as if it were a
temperature, so that the reported figure is only 35/67 of this. -/
theorem C65_annual_consumption_understated (m : Libm) (fuel limit : ℕ) (c : TestConditions)
    (des : Designation) (s s' : Sim n k) (r : Sim.TestSummary k)
    (hu : ∀ s1, s.applyTestSetpoint = .ok s1 → Usable s1)
    (h : s.run24hrTest m fuel limit c des = .ok (s', r)) (hEF : 0 < r.EF) :
    r.annualConsumed_kJ * 67 = 35 * (365 * waterHeat r.removed_L (67 * (5 / 9)) / r.EF) ∧
    r.annualConsumed_kJ ≠ 365 * waterHeat r.removed_L (67 * (5 / 9)) / r.EF := by
  obtain ⟨S, before, d, a1, a2, hV, a4, a5, a6, b1, -⟩ := day_facts (usable_kept m fuel c) hu h
  obtain ⟨z, -, q2, -, -, -, -, -, -, -, -, -, -, -, -, q14⟩ := summarize_ok a5
  rw [q14, if_pos hEF]
  have hz : r.removed_L ≠ 0 := by rw [q2]; exact z
  constructor
  · unfold waterHeat; ring
  · intro e
    rw [div_left_inj' hEF.ne'] at e
    unfold waterHeat at e
    apply hz
    linarith

end HPWH
