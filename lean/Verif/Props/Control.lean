import Verif.Props.HeatSource
import Verif.Lemmas.Logic
import Verif.Spec.Logic
import Mathlib.Algebra.Order.Group.MinMax

/-! # C26–C28: defrost derating, compressor lock-out, turn-on and shut-off decisions -/

namespace HPWH

open Spec

variable {n k : ℕ}

/-! ## C26 -/

/-- The map a condenser has after `setupDefrostMap` with derating `d` at 35 °F. -/
def defrostMapOf (c : CondCfg) (d : ℚ) : List (ℚ × ℚ) := (c.setupDefrostMap d).defrostMap

/-- How far into the defrost window a temperature is: 0 at 17 °F and below, 1 at 35 °F, 0 at 47 °F and
above, linear in between. -/
def defrostDepth (T : ℚ) : ℚ := max 0 (min ((T - 17) / 18) ((47 - T) / 12))

theorem defrostDepth_bounds (T : ℚ) : 0 ≤ defrostDepth T ∧ defrostDepth T ≤ 1 := by
  unfold defrostDepth
  refine ⟨le_max_left _ _, max_le (by norm_num) ?_⟩
  rcases le_total T 35 with h | h
  · exact (min_le_left _ _).trans (by linarith)
  · exact (min_le_right _ _).trans (by linarith)

theorem defrostFactor_eq (c : CondCfg) (hc : c.defrostMap = []) (d T : ℚ) :
    CondCfg.defrostFactor (defrostMapOf c d) T = .ok (1 - (1 - d) * defrostDepth T) := by
  have hm : defrostMapOf c d = [(17, 1), (35, d), (47, 1)] := by
    simp [defrostMapOf, CondCfg.setupDefrostMap, hc]
  rw [hm]
  simp only [CondCfg.defrostFactor, List.getLast_cons_cons, List.getLast_singleton]
  unfold defrostDepth
  by_cases h1 : T ≤ 17
  · have : min ((T - 17) / 18) ((47 - T) / 12) ≤ 0 := (min_le_left _ _).trans (by linarith)
    simp [h1, max_eq_left this]
  by_cases h2 : 47 ≤ T
  · have : min ((T - 17) / 18) ((47 - T) / 12) ≤ 0 := (min_le_right _ _).trans (by linarith)
    simp [h2, max_eq_left this]
  push Not at h1 h2
  have hn : ¬ (T ≤ 17 ∨ T ≥ 47) := by push Not; exact ⟨h1, h2⟩
  simp only [hn, ↓reduceIte, CondCfg.defrostSearch]
  by_cases h3 : T ≤ 35
  · rw [if_pos h3, min_eq_left (by linarith), max_eq_right (by linarith)]
    congr 1; ring
  · push Not at h3
    rw [if_neg (by linarith), if_pos h2.le, min_eq_right (by linarith), max_eq_right (by linarith)]
    congr 1; ring

/-- **C26.** Defrost derating as set up by the library with a derating `d` between 0 and 1 at 35 °F:
the factor always exists, lies between `d` and 1, is exactly 1 at and outside 17 °F and 47 °F and
exactly `d` at 35 °F, and it is continuous everywhere: two air temperatures `T`, `T'` give factors that
differ by at most `(1 - d) / 12` per degree. -/
theorem C26_defrost_factor (c : CondCfg) (hc : c.defrostMap = []) (d : ℚ) (h1 : d ≤ 1)
    (T : ℚ) :
    ∃ f, CondCfg.defrostFactor (c.setupDefrostMap d).defrostMap T = .ok f ∧ d ≤ f ∧ f ≤ 1 ∧
      (T ≤ 17 ∨ 47 ≤ T → f = 1) ∧ (T = 35 → f = d) ∧
      ∀ T' f', CondCfg.defrostFactor (c.setupDefrostMap d).defrostMap T' = .ok f' →
        |f - f'| ≤ (1 - d) / 12 * |T - T'| := by
  have hb := defrostDepth_bounds T
  refine ⟨_, defrostFactor_eq c hc d T, ?_, ?_, ?_, ?_, ?_⟩
  · nlinarith
  · nlinarith
  · intro h
    have : defrostDepth T = 0 := by
      unfold defrostDepth
      apply max_eq_left
      rcases h with h | h
      · exact (min_le_left _ _).trans (by linarith)
      · exact (min_le_right _ _).trans (by linarith)
    rw [this]; ring
  · rintro rfl
    have : defrostDepth 35 = 1 := by unfold defrostDepth; norm_num
    rw [this]; ring
  · intro T' f' hf'
    have he : (1 - (1 - d) * defrostDepth T') = f' :=
      Except.ok.inj ((defrostFactor_eq c hc d T').symm.trans hf')
    have hL : |defrostDepth T - defrostDepth T'| ≤ 1 / 12 * |T - T'| := by
      unfold defrostDepth
      refine (abs_max_sub_max_le_max _ _ _ _).trans (max_le (by simp) ?_)
      refine (abs_min_sub_min_le_max _ _ _ _).trans (max_le ?_ ?_)
      · have : (T - 17) / 18 - (T' - 17) / 18 = 1 / 18 * (T - T') := by ring
        rw [this, abs_mul, abs_of_pos (by norm_num : (0:ℚ) < 1 / 18)]
        have := abs_nonneg (T - T')
        linarith
      · have : (47 - T) / 12 - (47 - T') / 12 = -(1 / 12 * (T - T')) := by ring
        rw [this, abs_neg, abs_mul, abs_of_pos (by norm_num : (0:ℚ) < 1 / 12)]
    rw [← he]
    have : 1 - (1 - d) * defrostDepth T - (1 - (1 - d) * defrostDepth T') =
        -((1 - d) * (defrostDepth T - defrostDepth T')) := by ring
    rw [this, abs_neg, abs_mul, abs_of_nonneg (by linarith : 0 ≤ 1 - d)]
    have := mul_le_mul_of_nonneg_left hL (by linarith : 0 ≤ 1 - d)
    linarith

/-- **C26** (effect). Defrost derating multiplies the COP and the output power by the factor at the air
temperature the compressor sees, and leaves the input power alone: with a derating at most one it never
raises output, and outside the window it changes nothing. -/
theorem C26_defrost_effect (c : CondCfg) (hc : c.defrostMap = []) (d : ℚ) (h1 : d ≤ 1)
    (hres : c.resDefrostPower_kW = 0) (hno : c.doDefrost = false) (airflow setpoint air water : ℚ) :
    ∃ f p p', d ≤ f ∧ f ≤ 1 ∧ c.getPerformance airflow setpoint air water = .ok p ∧
      (c.setupDefrostMap d).getPerformance airflow setpoint air water = .ok p' ∧
      p'.cop = f * p.cop ∧ p'.outputPower_W = f * p.outputPower_W ∧
      p'.inputPower_W = p.inputPower_W ∧
      (air ≤ Units.F_TO_C 17 ∨ Units.F_TO_C 47 ≤ air → p' = p) := by
  obtain ⟨f, hf, hf1, hf2, hf3, -⟩ := C26_defrost_factor c hc d h1 (Units.C_TO_F air)
  obtain ⟨p, hp⟩ : ∃ p, c.getPerformance airflow setpoint air water = .ok p := by
    simp [CondCfg.getPerformance, hno, bind, Except.bind, pure, Except.pure]
  obtain ⟨p', hp'⟩ : ∃ p', (c.setupDefrostMap d).getPerformance airflow setpoint air water = .ok p' := by
    have hr : (c.setupDefrostMap d).resDefrostPower_kW = 0 := hres
    have hd : (c.setupDefrostMap d).doDefrost = true := rfl
    simp [CondCfg.getPerformance, hr, hd, hf, bind, Except.bind, pure, Except.pure]
  have hr : (c.setupDefrostMap d).resDefrostPower_kW = 0 := hres
  have hd : (c.setupDefrostMap d).doDefrost = true := rfl
  have hpf := hp
  have hpf' := hp'
  simp only [CondCfg.getPerformance, hno, hres, bind, Except.bind, pure, Except.pure, gt_iff_lt,
    lt_self_iff_false, decide_false, Bool.false_and, Bool.false_eq_true, if_false] at hpf
  simp only [CondCfg.getPerformance, hd, hr, bind, Except.bind, pure, Except.pure, gt_iff_lt,
    lt_self_iff_false, decide_false, Bool.false_and, Bool.false_eq_true, if_false, if_true,
    hf] at hpf'
  have e := Except.ok.inj hpf
  have e' := Except.ok.inj hpf'
  have hcop : p'.cop = f * p.cop := by
    rw [← e, ← e']
    simp only [CondCfg.setupDefrostMap]
    split_ifs <;> ring
  have hin : p'.inputPower_W = p.inputPower_W := by rw [← e, ← e']; rfl
  have hout : p'.outputPower_W = f * p.outputPower_W := by
    rw [← e, ← e']
    simp only [CondCfg.setupDefrostMap]
    split_ifs <;> ring
  refine ⟨f, p, p', hf1, hf2, hp, hp', hcop, hout, hin, ?_⟩
  intro h
  have hf1 : f = 1 := by
    apply hf3
    unfold Units.C_TO_F Units.FperC Units.offsetF
    unfold Units.F_TO_C Units.FperC Units.offsetF at h
    rcases h with h | h
    · left; linarith
    · right; linarith
  rw [hf1, one_mul] at hcop hout
  cases p; cases p'; simp_all

example : sampleCond.defrostMap = [] ∧ sampleCond.doDefrost = false ∧
    sampleCond.resDefrostPower_kW = 0 ∧
    ∃ p, (sampleCond.setupDefrostMap (8 / 10)).getPerformance 1 50 (Units.F_TO_C 26) 40 = .ok p ∧
      p.cop = 27 / 10 := by
  decide +kernel

/-- Finding: setting up the defrost map a second time with another derating has no effect, because the
new points are appended behind the old ones and never found. -/
theorem C26_second_setup_ignored (c : CondCfg) (hc : c.defrostMap = []) (d d' T : ℚ) :
    CondCfg.defrostFactor ((c.setupDefrostMap d).setupDefrostMap d').defrostMap T =
      CondCfg.defrostFactor (c.setupDefrostMap d).defrostMap T := by
  have h1 : ((c.setupDefrostMap d).setupDefrostMap d').defrostMap =
      [(17, 1), (35, d), (47, 1), (17, 1), (35, d'), (47, 1)] := by
    simp [CondCfg.setupDefrostMap, hc]
  have h2 : (c.setupDefrostMap d).defrostMap = [(17, 1), (35, d), (47, 1)] := by
    simp [CondCfg.setupDefrostMap, hc]
  rw [h1, h2]
  simp only [CondCfg.defrostFactor, List.getLast_cons_cons, List.getLast_singleton]
  by_cases hn : T ≤ 17 ∨ T ≥ 47
  · simp only [hn, if_true]
  · simp only [hn, if_false, CondCfg.defrostSearch]
    push Not at hn
    split_ifs with h3 h4 h5 <;> first | rfl | exact absurd hn.2.le h4

/-! ## C27 -/

/-- Readings well outside the ambient limits of a heat source: by more than the margin `h` (and a
tolerance of 10⁻⁹ °C). -/
def WellOutside (s : SourceCfg n k) (h amb : ℚ) : Prop :=
  amb + 1 / 1000000000 < s.minT - h ∨ s.maxT + h + 1 / 1000000000 < amb

/-- Readings well inside the limits. -/
def WellInside (s : SourceCfg n k) (h amb : ℚ) : Prop :=
  s.minT + h + 1 / 1000000000 < amb ∧ amb + 1 / 1000000000 < s.maxT - h

/-- The margin: the hysteresis for an engaged compressor, nothing for an idle one. -/
def lockMargin (c : CondCfg) (st : SourceState) : ℚ := if st.isOn then c.hysteresis else 0

instance (s : SourceCfg n k) (h amb : ℚ) : Decidable (WellOutside s h amb) := by
  unfold WellOutside; infer_instance

instance (s : SourceCfg n k) (h amb : ℚ) : Decidable (WellInside s h amb) := by
  unfold WellInside; infer_instance

theorem WellOutside.not_inside {s : SourceCfg n k} {h amb : ℚ} (hh : 0 ≤ h)
    (ho : WellOutside s h amb) : ¬ WellInside s h amb := by
  rintro ⟨h1, h2⟩
  rcases ho with h3 | h3 <;> linarith

theorem shouldLockOut_eq (s : SourceCfg n k) (c : CondCfg) (st : SourceState) (p : Plant n)
    (amb : ℚ) (capped : Bool) (hcap : s.maxedOut p = .ok capped) :
    shouldLockOut s c st p amb = .ok (decide (st.lockedOut = true ∨ capped = true ∨
      WellOutside s (lockMargin c st) amb)) := by
  unfold shouldLockOut
  cases hl : st.lockedOut
  · rw [hcap]
    simp only [Bool.false_eq_true, if_false, false_or]
    congr 1
    unfold WellOutside lockMargin tolT
    cases st.isOn <;> cases capped <;> simp
  · simp

theorem shouldUnlock_eq (s : SourceCfg n k) (c : CondCfg) (st : SourceState) (p : Plant n)
    (amb : ℚ) (capped : Bool) (hcap : s.maxedOut p = .ok capped) :
    shouldUnlock s c st p amb = .ok (decide (st.lockedOut = false ∨ (capped = false ∧
      WellInside s (lockMargin c st) amb))) := by
  unfold shouldUnlock
  cases hl : st.lockedOut
  · simp
  · rw [hcap]
    unfold WellInside lockMargin tolT
    cases capped <;> cases st.isOn <;> simp

/-- **C27.** One evaluation of the lock-out of a compressor with non-negative hysteresis, given whether
it is capped (cannot heat the water further): it ends locked out exactly if it is capped, or the
ambient temperature is well outside the limits, or it was locked out and the temperature is not well
inside. Nothing else changes, and evaluating again under the same conditions changes nothing. -/
theorem C27_lock_out_decision (s : SourceCfg n k) (c : CondCfg) (st : SourceState) (p : Plant n)
    (amb : ℚ) (hh : 0 ≤ c.hysteresis) (capped : Bool) (hcap : s.maxedOut p = .ok capped) :
    ∃ b, toLockOrUnlock s c st p amb = .ok { st with lockedOut := b } ∧
      (b = true ↔ capped = true ∨ WellOutside s (lockMargin c st) amb ∨
        (st.lockedOut = true ∧ ¬ WellInside s (lockMargin c st) amb)) ∧
      toLockOrUnlock s c { st with lockedOut := b } p amb = .ok { st with lockedOut := b } := by
  have hm : 0 ≤ lockMargin c st := by unfold lockMargin; split_ifs <;> linarith
  have hne := fun h => WellOutside.not_inside (s := s) (amb := amb) hm h
  have key : ∀ x : Bool, toLockOrUnlock s c { st with lockedOut := x } p amb =
      .ok { st with lockedOut := decide (capped = true ∨ WellOutside s (lockMargin c st) amb ∨
        (x = true ∧ ¬ WellInside s (lockMargin c st) amb)) } := by
    intro x
    unfold toLockOrUnlock
    rw [shouldLockOut_eq _ _ _ _ _ capped hcap]
    simp only [bind, Except.bind, shouldUnlock_eq _ _ _ _ _ capped hcap, pure, Except.pure]
    have hmx : ∀ y, lockMargin c { st with lockedOut := y } = lockMargin c st := fun _ => rfl
    by_cases h1 : WellOutside s (lockMargin c st) amb <;>
      by_cases h2 : WellInside s (lockMargin c st) amb <;>
      cases capped <;> cases x <;> simp_all
  refine ⟨_, key st.lockedOut, by simp, ?_⟩
  rw [key]
  congr 2
  simp only [decide_eq_decide, decide_eq_true_eq]
  tauto

example : sampleSource.maxedOut samplePlant = .ok false ∧
    ∃ st, toLockOrUnlock sampleSource sampleCond sampleState samplePlant (-101) = .ok st ∧
      st.lockedOut = false := by
  refine ⟨?_, ?_⟩
  · have : ∃ b, sampleSource.maxedOut samplePlant = .ok b ∧ b = false := by decide +kernel
    obtain ⟨b, h, rfl⟩ := this
    exact h
  · decide +kernel

example : ∃ st, toLockOrUnlock sampleSource sampleCond sampleState samplePlant (-103) = .ok st ∧
    st.lockedOut = true := by
  decide +kernel

/-- Re-evaluating the lock-out along a sequence of ambient temperatures. -/
def lockHistory (s : SourceCfg n k) (c : CondCfg) (p : Plant n) (st : SourceState) :
    List ℚ → Res SourceState
  | [] => .ok st
  | amb :: rest => do
    let st' ← toLockOrUnlock s c st p amb
    lockHistory s c p st' rest

/-- The last reading that was well outside or well inside the limits, and which of the two. -/
def LastDecisive (s : SourceCfg n k) (h : ℚ) (outside : Bool) (ambs : List ℚ) : Prop :=
  ∃ before amb after, ambs = before ++ amb :: after ∧
    (if outside then WellOutside s h amb else WellInside s h amb) ∧
    ∀ x ∈ after, ¬ WellOutside s h x ∧ ¬ WellInside s h x

/-- **C27** (histories). Over any sequence of ambient temperatures an uncapped compressor ends locked
out if the last decisive reading was outside its limits, unlocked if it was inside, and as it began if
every reading fell between the thresholds. -/
theorem C27_lock_out_history (s : SourceCfg n k) (c : CondCfg) (p : Plant n) (st : SourceState)
    (hh : 0 ≤ c.hysteresis) (hcap : s.maxedOut p = .ok false) (ambs : List ℚ) :
    ∃ b, lockHistory s c p st ambs = .ok { st with lockedOut := b } ∧
      (LastDecisive s (lockMargin c st) true ambs → b = true) ∧
      (LastDecisive s (lockMargin c st) false ambs → b = false) ∧
      ((∀ x ∈ ambs, ¬ WellOutside s (lockMargin c st) x ∧ ¬ WellInside s (lockMargin c st) x) →
        b = st.lockedOut) := by
  have hm : 0 ≤ lockMargin c st := by unfold lockMargin; split_ifs <;> linarith
  have fact : ∀ (after : List ℚ) (x : Bool),
      (∀ y ∈ after, ¬ WellOutside s (lockMargin c st) y ∧ ¬ WellInside s (lockMargin c st) y) →
      lockHistory s c p { st with lockedOut := x } after = .ok { st with lockedOut := x } := by
    intro after
    induction after with
    | nil => intro x _; rfl
    | cons a after ih =>
      intro x hx
      obtain ⟨b, hb, hiff, -⟩ := C27_lock_out_decision s c { st with lockedOut := x } p a hh false hcap
      have hxa := hx a (by simp)
      have hbx : b = x := by
        have : lockMargin c { st with lockedOut := x } = lockMargin c st := rfl
        rw [this] at hiff
        cases x <;> cases b <;> simp_all
      rw [lockHistory, hb]
      simp only [bind, Except.bind, hbx]
      exact ih x fun y hy => hx y (by simp [hy])
  have total : ∀ (l : List ℚ) (x : Bool), ∃ b,
      lockHistory s c p { st with lockedOut := x } l = .ok { st with lockedOut := b } := by
    intro l
    induction l with
    | nil => intro x; exact ⟨x, rfl⟩
    | cons a l ih =>
      intro x
      obtain ⟨b, hb, -, -⟩ := C27_lock_out_decision s c { st with lockedOut := x } p a hh false hcap
      obtain ⟨b', hb'⟩ := ih b
      refine ⟨b', ?_⟩
      rw [lockHistory, hb]
      exact hb'
  have app : ∀ (l r : List ℚ) (x y : Bool),
      lockHistory s c p { st with lockedOut := x } l = .ok { st with lockedOut := y } →
      lockHistory s c p { st with lockedOut := x } (l ++ r) =
        lockHistory s c p { st with lockedOut := y } r := by
    intro l
    induction l with
    | nil =>
      intro r x y h
      have : ({ st with lockedOut := x } : SourceState) = { st with lockedOut := y } :=
        Except.ok.inj h
      rw [List.nil_append, this]
    | cons a l ih =>
      intro r x y h
      obtain ⟨b, hb, -, -⟩ := C27_lock_out_decision s c { st with lockedOut := x } p a hh false hcap
      rw [lockHistory, hb] at h
      rw [List.cons_append, lockHistory, hb]
      exact ih r b y h
  have last : ∀ (before after : List ℚ) (amb : ℚ) (o : Bool),
      (if o then WellOutside s (lockMargin c st) amb else WellInside s (lockMargin c st) amb) →
      (∀ y ∈ after, ¬ WellOutside s (lockMargin c st) y ∧ ¬ WellInside s (lockMargin c st) y) →
      lockHistory s c p { st with lockedOut := st.lockedOut } (before ++ amb :: after) =
        .ok { st with lockedOut := o } := by
    intro before after amb o ho hafter
    obtain ⟨x, hx⟩ := total before st.lockedOut
    rw [app before (amb :: after) _ x hx]
    obtain ⟨b, hb, hiff, -⟩ := C27_lock_out_decision s c { st with lockedOut := x } p amb hh false hcap
    have hbo : b = o := by
      have : lockMargin c { st with lockedOut := x } = lockMargin c st := rfl
      rw [this] at hiff
      cases o
      · have hni : ¬ WellOutside s (lockMargin c st) amb := fun h => h.not_inside hm (by simpa using ho)
        have hi : WellInside s (lockMargin c st) amb := by simpa using ho
        cases b
        · rfl
        · have := hiff.mp rfl
          simp [hni, hi] at this
      · have : WellOutside s (lockMargin c st) amb := by simpa using ho
        exact hiff.mpr (Or.inr (Or.inl this))
    rw [lockHistory, hb]
    simp only [bind, Except.bind, hbo]
    exact fact after o hafter
  obtain ⟨b, hb⟩ := total ambs st.lockedOut
  refine ⟨b, hb, ?_, ?_, ?_⟩
  · rintro ⟨before, amb, after, rfl, ho, hafter⟩
    exact (congrArg SourceState.lockedOut
      (Except.ok.inj ((last before after amb true ho hafter).symm.trans hb))).symm
  · rintro ⟨before, amb, after, rfl, ho, hafter⟩
    exact (congrArg SourceState.lockedOut
      (Except.ok.inj ((last before after amb false ho hafter).symm.trans hb))).symm
  · intro h
    exact (congrArg SourceState.lockedOut
      (Except.ok.inj ((fact ambs st.lockedOut h).symm.trans hb))).symm

/-- A history ending inside the hysteresis band after a reading outside: still locked out. -/
example : ∃ st, lockHistory sampleSource sampleCond samplePlant sampleState [20, -103, -99] = .ok st ∧
    st.lockedOut = true := by
  decide +kernel

example : LastDecisive sampleSource (lockMargin sampleCond sampleState) true [20, -103, -99] := by
  refine ⟨[20], -103, [-99], rfl, ?_, ?_⟩
  · simp only [if_true]; decide +kernel
  · intro x hx
    rw [List.mem_singleton] at hx
    subst hx
    constructor <;> decide +kernel

/-! ## C28 -/

theorem reads_iff (l : Logic) (p : Plant n) (v : ℚ) : Reads l p v ↔ l.tankValue p = .ok v := by
  obtain ⟨kind, dp, cmp, ew, cs⟩ := l
  unfold Reads Logic.tankValue
  cases kind with
  | temp abs dist =>
    cases dist <;> simp [Plant.averageDist, eq_comm]
  | soc a b c d =>
    simp only
    cases p.haveInletT <;> cases c <;> simp [eq_comm]

theorem threshold_eq (l : Logic) (p : Plant n) : threshold l p = l.comparisonValue p := by
  unfold threshold Logic.comparisonValue
  rfl

theorem passes_iff (c : Cmp) (x y : ℚ) : Passes c x y ↔ c.test x y = true := by
  cases c <;> simp [Passes, Cmp.test]

theorem fires_iff (l : Logic) (p : Plant n) : Fires l p ↔ l.holds p = .ok true := by
  unfold Fires Logic.holds
  simp only [reads_iff, threshold_eq, passes_iff]
  cases l.tankValue p <;> simp

/-- A turn-on logic asks for heat: it is satisfied and, if it checks a standby condition and the heat
source has one, the standby logic passes the same comparison. -/
def AsksForHeat (s : SourceCfg n k) (p : Plant n) (l : Logic) : Prop :=
  Fires l p ∧ (l.checkStandby = true → ∀ st, s.standby = some st →
    ∃ v, Reads st p v ∧ Passes l.cmp v (threshold st p))

/-- A heat source is told to shut off: the tank bottom has reached the setpoint or a shut-off logic is
satisfied. -/
def ToldToShutOff (s : SourceCfg n k) (p : Plant n) : Prop :=
  p.setpoint ≤ p.tank.nodeTs 0 ∨ ∃ l ∈ s.shutOff, Fires l p

theorem shutsOff_iff (s : SourceCfg n k) (p : Plant n) (b : Bool) (h : s.shutsOff p = .ok b) :
    b = true ↔ ToldToShutOff s p := by
  unfold SourceCfg.shutsOff at h
  unfold ToldToShutOff
  by_cases h0 : p.tank.nodeTs 0 ≥ p.setpoint
  · rw [if_pos h0] at h
    have : true = b := Except.ok.inj h
    simp [← this, h0]
  · rw [if_neg h0] at h
    rw [anyHolds_iff p _ b h]
    simp only [fires_iff]
    constructor
    · exact Or.inr
    · exact fun h => h.resolve_left h0

theorem wantsHeat_iff (s : SourceCfg n k) (p : Plant n) (l : Logic) (b : Bool)
    (h : s.wantsHeat p l = .ok b) : b = true ↔ AsksForHeat s p l := by
  unfold SourceCfg.wantsHeat at h
  unfold AsksForHeat Fires
  simp only [reads_iff, threshold_eq, passes_iff]
  rw [bind_ok_iff] at h
  obtain ⟨v, hv, h⟩ := h
  by_cases ht : l.cmp.test v (l.comparisonValue p) = true
  · rw [if_pos ht] at h
    have h1 : ∃ w, l.tankValue p = .ok w ∧ l.cmp.test w (l.comparisonValue p) = true := ⟨v, hv, ht⟩
    cases hc : l.checkStandby
    · rw [hc] at h
      have : true = b := Except.ok.inj h
      simp [← this, h1]
    · rw [hc] at h
      cases hs : s.standby with
      | none =>
        rw [hs] at h
        have : true = b := Except.ok.inj h
        simp [← this, h1]
      | some st =>
        rw [hs] at h
        simp only at h
        rw [bind_ok_iff] at h
        obtain ⟨w, hw, h⟩ := h
        have : l.cmp.test w (st.comparisonValue p) = b := Except.ok.inj h
        simp only [h1, true_and, forall_const, Option.some.injEq, forall_eq', hw, Except.ok.injEq,
          exists_eq_left', this]
  · rw [if_neg ht] at h
    have : false = b := Except.ok.inj h
    simp [← this, hv, ht]

theorem shouldHeatLoop_iff (s : SourceCfg n k) (p : Plant n) (ls : List Logic) (b : Bool)
    (h : s.shouldHeatLoop p ls = .ok b) : b = true ↔ ∃ l ∈ ls, AsksForHeat s p l := by
  induction ls generalizing b with
  | nil =>
    have : false = b := Except.ok.inj h
    simp [← this]
  | cons l ls ih =>
    rw [SourceCfg.shouldHeatLoop, bind_ok_iff] at h
    obtain ⟨b1, h1, h⟩ := h
    have := wantsHeat_iff s p l b1 h1
    cases b1
    · have h2 := ih b (by simpa using h)
      simp_all
    · rw [if_pos rfl] at h
      have hb : true = b := Except.ok.inj h
      simp_all

/-- **C28.** The two decisions of a heat source, whenever they are made at all: it shuts off exactly if
the tank bottom is at setpoint or some shut-off logic is satisfied; it decides to heat exactly if some
turn-on logic asks for heat (with its standby condition) and it is not told to shut off. -/
theorem C28_decisions (s : SourceCfg n k) (p : Plant n) (on : Bool)
    (h : s.shouldHeat p = .ok on) :
    (on = true ↔ (∃ l ∈ s.turnOn, AsksForHeat s p l) ∧ ¬ ToldToShutOff s p) ∧
    ∀ off, s.shutsOff p = .ok off →
      (off = true ↔ ToldToShutOff s p) ∧ ¬ (on = true ∧ off = true) := by
  unfold SourceCfg.shouldHeat at h
  rw [bind_ok_iff] at h
  obtain ⟨b, hb, h⟩ := h
  have hl := shouldHeatLoop_iff s p _ b hb
  have main : on = true ↔ (∃ l ∈ s.turnOn, AsksForHeat s p l) ∧ ¬ ToldToShutOff s p := by
    cases b
    · rw [if_neg (by simp)] at h
      have hb : false = on := Except.ok.inj h
      have hno : ¬ ∃ l ∈ s.turnOn, AsksForHeat s p l := fun hc => by simpa using hl.mpr hc
      rw [← hb]
      simp [hno]
    · simp only [if_true] at h
      rw [bind_ok_iff] at h
      obtain ⟨off, hoff, h⟩ := h
      have h2 : (!off) = on := Except.ok.inj h
      have h3 := shutsOff_iff s p off hoff
      cases off <;> simp_all
  refine ⟨main, fun off hoff => ?_⟩
  have h3 := shutsOff_iff s p off hoff
  exact ⟨h3, fun ⟨ha, hb⟩ => (main.mp ha).2 (h3.mp hb)⟩

/-- **C27.** When a heat source counts as capped: it is a compressor that cannot reach the setpoint, and
the bottom of the tank is as warm as it can make it or it is told to shut off. -/
theorem C27_capped (s : SourceCfg n k) (p : Plant n) (capped : Bool) (h : s.maxedOut p = .ok capped) :
    capped = true ↔ ∃ c, s.kind = .condenser c ∧ c.maxSetpoint < p.setpoint ∧
      (c.maxSetpoint ≤ p.tank.nodeTs 0 ∨ ToldToShutOff s p) := by
  unfold SourceCfg.maxedOut at h
  cases hk : s.kind with
  | resistance w =>
    rw [hk] at h
    simp only [Except.ok.injEq] at h
    simp [← h]
  | condenser c =>
    rw [hk] at h
    dsimp only at h
    by_cases h1 : p.setpoint > c.maxSetpoint
    · rw [if_pos h1] at h
      by_cases h2 : p.tank.nodeTs 0 ≥ c.maxSetpoint
      · rw [if_pos h2] at h
        simp only [Except.ok.injEq] at h
        simp only [← h, true_iff]
        exact ⟨c, rfl, h1, .inl h2⟩
      · rw [if_neg h2] at h
        rw [shutsOff_iff s p capped h]
        constructor
        · intro h3; exact ⟨c, rfl, h1, .inr h3⟩
        · rintro ⟨c', e, -, h4 | h4⟩
          · cases e; exact absurd h4 h2
          · exact h4
    · rw [if_neg h1] at h
      simp only [Except.ok.injEq] at h
      simp only [← h, Bool.false_eq_true, false_iff]
      rintro ⟨c', e, h2, -⟩
      cases e
      exact h1 h2

example : ∃ b, sampleSource.maxedOut { samplePlant with setpoint := 150 } = .ok b ∧ b = false := by
  decide +kernel

/-- **C28** (totality). With usable logics both decisions are always made. -/
theorem C28_decisions_total (s : SourceCfg n k) (p : Plant n)
    (hon : ∀ l ∈ s.turnOn, l.Usable p) (hst : ∀ l, s.standby = some l → l.Usable p)
    (hoff : ∀ l ∈ s.shutOff, l.Usable p) :
    (∃ on, s.shouldHeat p = .ok on) ∧ ∃ off, s.shutsOff p = .ok off := by
  obtain ⟨off, ho⟩ := shutsOff_ok s p hoff
  have hw : ∀ l, l.Usable p → ∃ b, s.wantsHeat p l = .ok b := by
    intro l hl
    obtain ⟨v, hv⟩ := hl.tankValue
    unfold SourceCfg.wantsHeat
    simp only [hv, bind, Except.bind, pure, Except.pure]
    split_ifs
    · split
      · rename_i st _ hs
        obtain ⟨w, hw⟩ := (hst st hs).tankValue
        simp [hw]
      · exact ⟨_, rfl⟩
    · exact ⟨_, rfl⟩
  have hloop : ∀ ls : List Logic, (∀ l ∈ ls, l.Usable p) → ∃ b, s.shouldHeatLoop p ls = .ok b := by
    intro ls
    induction ls with
    | nil => exact fun _ => ⟨_, rfl⟩
    | cons l ls ih =>
      intro h
      obtain ⟨b, hb⟩ := hw l (h l (by simp))
      obtain ⟨r, hr⟩ := ih fun l' hl' => h l' (by simp [hl'])
      rw [SourceCfg.shouldHeatLoop, hb]
      simp only [bind, Except.bind, hr, pure, Except.pure]
      split_ifs <;> exact ⟨_, rfl⟩
  obtain ⟨b, hb⟩ := hloop s.turnOn hon
  refine ⟨?_, off, ho⟩
  unfold SourceCfg.shouldHeat
  simp only [hb, bind, Except.bind, ho, pure, Except.pure]
  split_ifs <;> exact ⟨_, rfl⟩

/-- Turn on when the bottom is 20 °C below setpoint; standby: top 3 °C below setpoint. -/
def sampleTurnOn : Logic := ⟨.temp false .bottom, 20, .less, false, true, ""⟩

/-- Standby logic: top 3 °C below setpoint. -/
def sampleStandby : Logic := ⟨.temp false .top, 3, .less, false, false, ""⟩

/-- A source with turn-on, standby and shut-off logics. -/
def sampleControlled : SourceCfg 3 2 :=
  { sampleSource with
    turnOn := [sampleTurnOn]
    standby := some sampleStandby
    shutOff := [⟨.temp true .top, 52, .greater, false, false, ""⟩] }

example : ∃ on, sampleControlled.shouldHeat samplePlant = .ok on ∧ on = true := by decide +kernel
example : ∃ on, sampleControlled.shouldHeat { samplePlant with setpoint := 52 } = .ok on ∧
    on = false := by decide +kernel

end HPWH
