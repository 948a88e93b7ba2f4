import Verif.Model.Import
import Verif.Lemmas.Rescale
import Verif.Lemmas.HeatSource
import Verif.Props.Logics

/-! # C44: heating logics after export and import -/

namespace HPWH

open Spec

variable {n : ℕ}

namespace WDist

theorem maximumWeight_nonneg_aux (d : WDist) (r : ℚ) : r ≤ d.foldl (fun r p => max p.weight r) r := by
  induction d generalizing r with
  | nil => exact le_rfl
  | cons p ps ih => exact le_trans (le_max_right _ _) (ih _)

theorem le_maximumWeight_aux (d : WDist) (r : ℚ) (p : DistPoint) (hp : p ∈ d) :
    p.weight ≤ d.foldl (fun r p => max p.weight r) r := by
  induction d generalizing r with
  | nil => cases hp
  | cons q ps ih =>
    rcases List.mem_cons.mp hp with h | h
    · subst h; exact le_trans (le_max_left _ _) (maximumWeight_nonneg_aux ps _)
    · exact ih _ h

theorem maximumWeight_nonneg (d : WDist) : 0 ≤ d.maximumWeight := maximumWeight_nonneg_aux d 0

theorem zip_map_self (d : WDist) (f g : DistPoint → ℚ) :
    ofVectors (d.map f) (d.map g) = d.map fun p => ⟨f p, g p⟩ := by
  induction d with
  | nil => rfl
  | cons p ps ih =>
    simp only [ofVectors, List.map_cons, List.zip_cons_cons] at ih ⊢
    rw [ih]

/-- What export and import do to a distribution: heights and weights are divided by their maxima. -/
theorem toRs_ok {d : WDist} {r : RsDist} (h : d.toRs = .ok r) :
    ∃ a w, a ≠ 0 ∧ 0 < w ∧ r = ⟨some ((d.rescale a w).map (·.height)), some ((d.rescale a w).map (·.weight))⟩ ∧
      ofRs r = d.rescale a w := by
  unfold toRs at h
  by_cases hd : d = []
  · simp only [hd, dif_pos, Except.ok.injEq] at h
    subst hd
    exact ⟨1, 1, one_ne_zero, one_pos, h ▸ rfl, h ▸ rfl⟩
  · simp only [hd, dif_neg, not_false_eq_true] at h
    split_ifs at h with h0
    simp only [Except.ok.injEq] at h
    push Not at h0
    refine ⟨_, _, h0.1, lt_of_le_of_ne d.maximumWeight_nonneg (Ne.symm h0.2), ?_, ?_⟩
    · rw [← h]; simp [rescale, Function.comp_def]
    · rw [← h]; exact zip_map_self d _ _

/-- For a valid distribution both maxima are positive. -/
theorem toRs_valid {d : WDist} (h : d.isValid = true) :
    ∃ r a w, d.toRs = .ok r ∧ 0 < a ∧ 0 < w ∧ ofRs r = d.rescale a w := by
  simp only [isValid, Bool.and_eq_true, Bool.not_eq_true', List.isEmpty_eq_false_iff, List.any_eq_true,
    decide_eq_true_eq] at h
  obtain ⟨⟨hd, p, hp, hw⟩, hl⟩ := h
  have hmw : 0 < d.maximumWeight := lt_of_lt_of_le hw (le_maximumWeight_aux d 0 p hp)
  have hmh : 0 < d.maximumHeight hd := by
    have : ∀ (d : WDist) (prev : ℚ), isValidLoop prev d = true → ∀ p ∈ d, prev < p.height := by
      intro d
      induction d with
      | nil => intro _ _ p hp; cases hp
      | cons q qs ih =>
        intro prev h p hp
        simp only [isValidLoop, Bool.and_eq_true, decide_eq_true_eq] at h
        rcases List.mem_cons.mp hp with e | e
        · rw [e]; exact h.1
        · exact lt_trans h.1 (ih _ h.2 p e)
    exact this d 0 hl _ (List.getLast_mem hd)
  refine ⟨⟨some (d.map (·.height / d.maximumHeight hd)), some (d.map (·.weight / d.maximumWeight))⟩, d.maximumHeight hd,
    d.maximumWeight, ?_, hmh, hmw,
    zip_map_self d (fun p => p.height / d.maximumHeight hd) (fun p => p.weight / d.maximumWeight)⟩
  simp [toRs, hd, hmh.ne', hmw.ne']

end WDist

namespace Logic

/-- A logic is told from another by nothing a simulator does with it while running: deciding, estimating how much of a
step is needed, checking standby, and its place in the sizing fractions. -/
structure _root_.HPWH.Spec.SameLogic (a b : Logic) : Prop where
  decision : ∀ {n : ℕ} (p : Plant n), a.holds p = b.holds p
  compares : ∀ {n : ℕ} (p : Plant n), a.comparisonValue p = b.comparisonValue p
  reads : ∀ {n : ℕ} (p : Plant n), a.tankValue p = b.tankValue p
  fraction : ∀ {n : ℕ} (p : Plant n), a.fractToMeet p = b.fractToMeet p
  sizing : ∀ {n : ℕ} (p : Plant n), Sim.avgFract a p = Sim.avgFract b p
  standby : a.checkStandby = b.checkStandby
  comparison : a.cmp = b.cmp

theorem avgFract_rescale {a w : ℚ} (ha : a ≠ 0) (hw : w ≠ 0) (d : WDist) (l l' : Logic) (b b' : Bool)
    (hl : l.kind = .temp b (.weighted d)) (hl' : l'.kind = .temp b' (.weighted (d.rescale a w)))
    (p : Plant n) : Sim.avgFract l' p = Sim.avgFract l p := by
  unfold Sim.avgFract
  have h := WDist.rescale_avgFractLoop ha hw 0 0 0 d
  simp only [zero_div] at h
  simp only [hl, hl', h]
  generalize Sim.avgFractLoop 0 d 0 0 = r
  have hiff : (r.2.1 / (a * w) = 0 ∨ r.2.2 / a = 0) ↔ (r.2.1 = 0 ∨ r.2.2 = 0) := by
    simp [div_eq_zero_iff, ha, hw]
  simp only [hiff]
  split_ifs with h0
  · rfl
  · push Not at h0
    congr 2
    have := h0.1; have := h0.2
    field_simp

/-- Two temperature logics that differ in distribution only, one being a rescaling of the other's. -/
theorem same_of_rescale {a w : ℚ} (ha : a ≠ 0) (hw : 0 < w) (d : WDist) (l l' : Logic) (b : Bool)
    (hl : l.kind = .temp b (.weighted d)) (hl' : l'.kind = .temp b (.weighted (d.rescale a w)))
    (hd : l'.decisionPoint = l.decisionPoint) (hc : l'.cmp = l.cmp) (hs : l'.checkStandby = l.checkStandby) :
    SameLogic l' l := by
  have hcv : ∀ {n : ℕ} (p : Plant n), l'.comparisonValue p = l.comparisonValue p := by
    intro n p; simp only [comparisonValue, hl, hl', hd]; cases b <;> rfl
  have htv : ∀ {n : ℕ} (p : Plant n), l'.tankValue p = l.tankValue p := by
    intro n p; simp only [tankValue, hl, hl', Plant.averageDist, WDist.rescale_averageT ha hw]
  refine ⟨?_, hcv, htv, ?_, ?_, hs, hc⟩
  · intro n p; simp only [holds, htv, hcv, hc]
  · intro n p
    simp only [fractToMeet, hl, hl', tempFract, rescale_fractNodes ha hw.ne', hcv, hc]
  · intro n p; exact avgFract_rescale ha hw.ne' d l l' b b hl hl' p

theorem same_of_kind (l l' : Logic) (hl : l'.kind = l.kind)
    (hd : l'.decisionPoint = l.decisionPoint) (hc : l'.cmp = l.cmp) (hs : l'.checkStandby = l.checkStandby) :
    SameLogic l' l := by
  have hcv : ∀ {n : ℕ} (p : Plant n), l'.comparisonValue p = l.comparisonValue p := by
    intro n p; simp only [comparisonValue, hl, hd]
  have htv : ∀ {n : ℕ} (p : Plant n), l'.tankValue p = l.tankValue p := by
    intro n p; simp only [tankValue, hl]
  refine ⟨?_, hcv, htv, ?_, ?_, hs, hc⟩
  · intro n p; simp only [holds, htv, hcv, hc]
  · intro n p; simp only [fractToMeet, hl, tempFract, socFract, htv, hcv, hc]
  · intro n p; simp only [Sim.avgFract, hl, hcv]

theorem cmp_ofRs_toRs (c : Cmp) : Cmp.ofRs (some c.toRs) = .ok c := by cases c <;> rfl

theorem K_C (x : ℚ) : Units.K_TO_C (Units.C_TO_K x) = x := by
  unfold Units.K_TO_C Units.C_TO_K; ring

/-- The distribution and label that come back. -/
theorem dist_ofRs_toRs (dist : Dist) (v : Option RsLocation × Option RsDist) (h : dist.toRs = .ok v)
    (x : RsTempLogic) (hx : x.location = v.1) (hx' : x.dist = v.2) :
    (∃ d a w, dist = .weighted d ∧ a ≠ 0 ∧ 0 < w ∧ (Dist.ofRs x).2 = .weighted (d.rescale a w)) ∨
      (dist = .top ∧ Dist.ofRs x = ("top of tank", .top)) ∨
      (dist = .bottom ∧ Dist.ofRs x = ("bottom of tank", .bottom)) := by
  cases dist with
  | top =>
    right; left
    simp only [Dist.toRs, Except.ok.injEq] at h
    subst h
    exact ⟨rfl, by simp [Dist.ofRs, hx, hx']⟩
  | bottom =>
    right; right
    simp only [Dist.toRs, Except.ok.injEq] at h
    subst h
    exact ⟨rfl, by simp [Dist.ofRs, hx, hx']⟩
  | weighted d =>
    left
    simp only [Dist.toRs] at h
    obtain ⟨r, hr, h⟩ := (bind_ok_iff _ _ _).mp h
    simp only [pure, Except.pure, Except.ok.injEq] at h
    subst h
    obtain ⟨a, w, ha, hw, e, hof⟩ := WDist.toRs_ok hr
    refine ⟨d, a, w, rfl, ha, hw, ?_⟩
    simp only [Dist.ofRs, hx, hx', e]
    rw [e] at hof
    simp only [WDist.ofRs, Option.getD_some] at hof
    rw [hof]

/-- **C44 (temperature logics).** Exporting a logic that compares temperatures and importing it gives a logic
that decides the same, and estimates the same, in every state of every tank. Missing: logics that compare
the state of charge (`C44_soc_lost`). -/
theorem C44_same_decision_partial (l : Logic) (b : Bool) (dist : Dist) (hk : l.kind = .temp b dist) (r : RsLogic)
    (h : l.toRs = .ok r) : ∃ l', Logic.ofRs r = .ok (some l') ∧ SameLogic l' l := by
  unfold toRs at h
  simp only [hk] at h
  obtain ⟨v, hv, h⟩ := (bind_ok_iff _ _ _).mp h
  simp only [pure, Except.pure, Except.ok.injEq] at h
  subst h
  have key : ∀ (x : RsTempLogic), x.location = v.1 → x.dist = v.2 → ∀ l' : Logic,
      l'.kind = .temp b (Dist.ofRs x).2 → l'.decisionPoint = l.decisionPoint → l'.cmp = l.cmp →
      l'.checkStandby = l.checkStandby → SameLogic l' l := by
    intro x hx hx' l' h1 h2 h3 h4
    rcases dist_ofRs_toRs dist v hv x hx hx' with ⟨d, a, w, hd, ha, hw, e⟩ | ⟨hd, e⟩ | ⟨hd, e⟩
    · rw [e] at h1; rw [hd] at hk
      exact same_of_rescale ha hw d l l' b hk h1 h2 h3 h4
    · refine same_of_kind l l' ?_ h2 h3 h4
      rw [h1, hk, e, hd]
    · refine same_of_kind l l' ?_ h2 h3 h4
      rw [h1, hk, e, hd]
  have hst : (if l.checkStandby = true then some true else none).getD false = l.checkStandby := by
    cases l.checkStandby <;> rfl
  cases b with
  | true =>
    simp only [ofRs, if_true, cmp_ofRs_toRs, bind, Except.bind, pure, Except.pure]
    refine ⟨_, rfl, key _ ?_ ?_ _ rfl ?_ rfl hst⟩
    · rfl
    · rfl
    · exact K_C l.decisionPoint
  | false =>
    simp only [ofRs, Bool.false_eq_true, if_false, cmp_ofRs_toRs, bind, Except.bind, pure, Except.pure]
    refine ⟨_, rfl, key _ ?_ ?_ _ rfl rfl rfl hst⟩
    · rfl
    · rfl

/-- **C44.** A valid temperature logic can be exported, and what comes back is valid again. -/
theorem C44_valid (l : Logic) (b : Bool) (dist : Dist) (hk : l.kind = .temp b dist) (hv : l.isValid = true) :
    ∃ r l', l.toRs = .ok r ∧ Logic.ofRs r = .ok (some l') ∧ SameLogic l' l ∧ l'.isValid = true := by
  have hdv : dist.isValid = true := by simpa [isValid, hk] using hv
  have hex : ∃ v, dist.toRs = .ok v := by
    cases dist with
    | top => exact ⟨_, rfl⟩
    | bottom => exact ⟨_, rfl⟩
    | weighted d =>
      obtain ⟨r, _, _, hr, _⟩ := WDist.toRs_valid hdv
      exact ⟨(none, some r), by simp [Dist.toRs, hr, bind, Except.bind, pure, Except.pure]⟩
  obtain ⟨v, hv'⟩ := hex
  have hr : ∃ r, l.toRs = .ok r := by
    unfold toRs
    simp only [hk, hv', bind, Except.bind, pure, Except.pure]
    exact ⟨_, rfl⟩
  obtain ⟨r, hr⟩ := hr
  obtain ⟨l', hl', hs⟩ := C44_same_decision_partial l b dist hk r hr
  refine ⟨r, l', hr, hl', hs, ?_⟩
  have hr2 := hr
  unfold toRs at hr2
  simp only [hk, hv', bind, Except.bind, pure, Except.pure, Except.ok.injEq] at hr2
  subst hr2
  have hkind : ∃ x : RsTempLogic, x.location = v.1 ∧ x.dist = v.2 ∧ ∃ b', l'.kind = .temp b' (Dist.ofRs x).2 := by
    cases b with
    | true =>
      simp only [ofRs, if_true, cmp_ofRs_toRs, bind, Except.bind, pure, Except.pure, Except.ok.injEq,
        Option.some.injEq] at hl'
      subst hl'
      exact ⟨⟨_, _, v.1, v.2, _⟩, rfl, rfl, _, rfl⟩
    | false =>
      simp only [ofRs, Bool.false_eq_true, if_false, cmp_ofRs_toRs, bind, Except.bind, pure, Except.pure,
        Except.ok.injEq, Option.some.injEq] at hl'
      subst hl'
      exact ⟨⟨_, _, v.1, v.2, _⟩, rfl, rfl, _, rfl⟩
  obtain ⟨x, hx, hx', b', hkind⟩ := hkind
  unfold isValid
  rw [hkind]
  cases dist with
  | top =>
    simp only [Dist.toRs, Except.ok.injEq] at hv'
    subst hv'
    simp [Dist.ofRs, hx, hx', Dist.isValid]
  | bottom =>
    simp only [Dist.toRs, Except.ok.injEq] at hv'
    subst hv'
    simp [Dist.ofRs, hx, hx', Dist.isValid]
  | weighted d =>
    obtain ⟨rd, a, w, hrd, ha, hw, hof⟩ := WDist.toRs_valid hdv
    simp only [Dist.toRs, hrd, bind, Except.bind, pure, Except.pure, Except.ok.injEq] at hv'
    subst hv'
    obtain ⟨_, _, _, _, e, _⟩ := WDist.toRs_ok hrd
    simp only [Dist.ofRs, hx, hx', e]
    rw [e] at hof
    simp only [WDist.ofRs, Option.getD_some] at hof
    simp only [hof, Dist.isValid, WDist.rescale_isValid ha hw]
    exact hdv

/-- **C44 fails for logics on the state of charge.** Whatever the logic was, the same one comes back: it
asks for heat below a charge of −0.05, that is (for charges that are not negative) never. -/
theorem C44_soc_lost (l : Logic) (a b : ℚ) (c : Bool) (d : ℚ) (hk : l.kind = .soc a b c d) :
    ∃ r l', l.toRs = .ok r ∧ Logic.ofRs r = .ok (some l') ∧ l'.decisionPoint = 0 ∧
      ∀ {n : ℕ} (p : Plant n), p.haveInletT = true → 0 ≤ p.soc → l'.holds p = .ok false := by
  unfold toRs
  simp only [hk]
  refine ⟨_, _, rfl, rfl, rfl, ?_⟩
  intro n p hi hp
  simp only [holds, tankValue, hi, comparisonValue, Cmp.test, Option.getD_none]
  norm_num
  linarith

/-- A logic that keeps the tank at 80 % charge, and a tank at 40 %: heat is asked for before, not after. -/
theorem C44_soc_witness : ∃ (l l' : Logic) (r : RsLogic) (p : Plant 3), l.toRs = .ok r ∧
    Logic.ofRs r = .ok (some l') ∧ l.holds p = .ok true ∧ l'.holds p = .ok false := by
  let l : Logic :=
    { kind := .soc 43 (-(5 / 100)) false 18, decisionPoint := 8 / 10, cmp := .less
      isEnteringWaterHighTempShutoff := false, checkStandby := false, description := "" }
  let p : Plant 3 := { samplePlant with soc := 4 / 10, haveInletT := true }
  obtain ⟨r, l', h1, h2, _, h4⟩ := C44_soc_lost l _ _ _ _ rfl
  exact ⟨l, l', r, p, h1, h2, by decide +kernel, h4 p rfl (by decide +kernel)⟩

/-- The mark of an entering-water shut-off and the label do not come back (the label "large draw" enters the
sizing fractions; `configure` puts both back for some presets). -/
theorem C44_marks_lost (l' : Logic) (r : RsLogic) (h' : Logic.ofRs r = .ok (some l')) :
    l'.isEnteringWaterHighTempShutoff = false ∧
      (l'.description = "name" ∨ l'.description = "top of tank" ∨ l'.description = "bottom of tank") := by
  unfold ofRs at h'
  have hd : ∀ x : RsTempLogic, (Dist.ofRs x).1 = "name" ∨ (Dist.ofRs x).1 = "top of tank" ∨
      (Dist.ofRs x).1 = "bottom of tank" := by
    intro x
    unfold Dist.ofRs
    rcases x with ⟨_, _, loc, dist, _⟩
    rcases loc with _ | (_ | _ | _) <;> rcases dist with _ | ⟨_ | _, _ | _⟩ <;> simp
  split at h'
  · simp only [Except.ok.injEq, Option.some.injEq] at h'
    subst h'; exact ⟨rfl, Or.inl rfl⟩
  · split at h'
    · simp at h'
    · obtain ⟨c, _, h'⟩ := (bind_ok_iff _ _ _).mp h'
      simp only [pure, Except.pure, Except.ok.injEq, Option.some.injEq] at h'
      subst h'; exact ⟨rfl, hd _⟩
    · obtain ⟨c, _, h'⟩ := (bind_ok_iff _ _ _).mp h'
      simp only [pure, Except.pure, Except.ok.injEq, Option.some.injEq] at h'
      subst h'; exact ⟨rfl, hd _⟩

example : (Logics.fifthSixthMaxTemp 50).kind = .temp true (.weighted (rangeDist (4 / 6) (5 / 6))) ∧
    (Logics.fifthSixthMaxTemp 50).isValid = true := by decide +kernel

example : ∃ r, (Logics.bottomThird 20).toRs = .ok r ∧
    ∃ l', Logic.ofRs r = .ok l' ∧ l'.map (·.decisionPoint) = some 20 := by decide +kernel

end Logic

end HPWH
