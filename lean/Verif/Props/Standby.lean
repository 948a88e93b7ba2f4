import Verif.Props.DayExample

/-! # C73: the standby period of the 24-hour test -/

namespace HPWH

open Spec _root_.HPWH.Units

variable {n k : ℕ}

/-! ## Specification -/

/-- In minute `t` a standby period that began in minute `A` ends: a draw goes on beyond the minute, the
system heats, or eight hours are over. -/
def StandbyEnds (v : ℕ → ℚ) (S : ℕ → Sim n k) (A t : ℕ) : Prop :=
  (v t ≠ 0 ∧ v (t + 1) ≠ 0) ∨ (S (t + 1)).isHeating = true ∨ A + 480 ≤ t

/-- The standby period: it begins six minutes after the first recovery, on the same day, and lasts through
minute `B`, the last one before it ends, or the last one of the day. -/
structure StandbyPeriod (v : ℕ → ℚ) (S : ℕ → Sim n k) (A B : ℕ) : Prop where
  recovered : ∃ R, A = R + 6 ∧ Recovered v S R ∧ ∀ t < R, ¬ Recovered v S t
  order : A ≤ B
  day : B ≤ 1440
  lasts : ∀ t, A < t → t ≤ B → ¬ StandbyEnds v S A t
  ends : B = 1440 ∨ StandbyEnds v S A (B + 1)

/-- There is at most one standby period. -/
theorem StandbyPeriod.unique {v : ℕ → ℚ} {S : ℕ → Sim n k} {A B A' B' : ℕ} (h : StandbyPeriod v S A B)
    (h' : StandbyPeriod v S A' B') : A = A' ∧ B = B' := by
  obtain ⟨R, rfl, r1, r2⟩ := h.recovered
  obtain ⟨R', rfl, r1', r2'⟩ := h'.recovered
  have : R = R' := by
    rcases lt_trichotomy R R' with hlt | rfl | hlt
    · exact absurd r1 (r2' R hlt)
    · rfl
    · exact absurd r1' (r2 R' hlt)
  subst this
  refine ⟨rfl, ?_⟩
  rcases lt_trichotomy B B' with hlt | rfl | hlt
  · rcases h.ends with e | e
    · have := h'.day; omega
    · exact absurd e (h'.lasts (B + 1) (by have := h.order; omega) hlt)
  · rfl
  · rcases h'.ends with e | e
    · have := h.day; omega
    · exact absurd e (h.lasts (B' + 1) (by have := h'.order; omega) hlt)

/-! ## The phases -/

/-- The figures of the standby period. -/
def StandbyFigures (p : Sim.DayPhases) (c : TestConditions) (S : ℕ → Sim n k) (A : ℕ) (minutes : Finset ℕ) : Prop :=
  p.standbyStart_min = A ∧ p.standbyStartT = (S (A + 1)).averageT ∧
    p.standbyUsed_kJ = ∑ t ∈ minutes, usedIn S t ∧
    p.standbyTankT = ∑ t ∈ minutes, (S (t + 1)).averageT ∧
    p.standbyAmbientT = minutes.card * c.ambientT

/-- Where the loop of the test is before minute `i`. -/
def StandbyPhase (c : TestConditions) (v : ℕ → ℚ) (S : ℕ → Sim n k) (p : Sim.DayPhases) (i : ℕ) : Prop :=
  (p.standby = false ∧ p.standbyEnded = false ∧ p.standbyStart_min = 0 ∧ p.standbyStartT = 0 ∧
    p.standbyUsed_kJ = 0 ∧ p.standbyTankT = 0 ∧ p.standbyAmbientT = 0 ∧
    ((p.firstRecovery = true ∧ ∀ t < i, ¬ Recovered v S t) ∨
      (p.firstRecovery = false ∧ ∃ R < i, Recovered v S R ∧ (∀ t < R, ¬ Recovered v S t) ∧
        p.recoveryEnd_min = R ∧ i ≤ R + 6))) ∨
  (p.firstRecovery = false ∧ ∃ R A, A = R + 6 ∧ Recovered v S R ∧ (∀ t < R, ¬ Recovered v S t) ∧ A < i ∧
    ((p.standby = true ∧ p.standbyEnded = false ∧ (∀ t, A < t → t < i → ¬ StandbyEnds v S A t) ∧
        StandbyFigures p c S A (Finset.Ioo A i)) ∨
      (p.standby = false ∧ p.standbyEnded = true ∧ ∃ E, A < E ∧ E < i ∧ StandbyEnds v S A E ∧
        (∀ t, A < t → t < E → ¬ StandbyEnds v S A t) ∧ p.standbyEnd_min = (E : ℚ) - 1 ∧
        p.standbyEndT = (S E).averageT ∧ StandbyFigures p c S A (Finset.Ioo A E))))

theorem Ioo_succ {A i : ℕ} (h : A < i) : Finset.Ioo A (i + 1) = insert i (Finset.Ioo A i) := by
  ext t
  simp only [Finset.mem_Ioo, Finset.mem_insert]
  omega

theorem standby_phases {c : TestConditions} {T0 : ℚ} {v : ℕ → ℚ} {S : ℕ → Sim n k}
    {Q : ℕ → Sim.DayPhases} {H : ℕ → Bool} {count : ℕ}
    (h0 : Q 0 = (Sim.Day.init .low (S 0) ([] : List (Sim.TestRecord k))).phases)
    (hn : ∀ i < count, (H i = true ↔ ∃ j ≤ i, (S (j + 1)).isHeating = true) ∧
      Q (i + 1) = (Q i).next (S (i + 1)) c T0 (i : ℚ) (v i) (usedIn S i)
        (decide (v i ≠ 0 ∧ v (i + 1) ≠ 0)) (H i)) :
    ∀ i ≤ count, (Q i).prevTankT = (S i).averageT ∧ StandbyPhase c v S (Q i) i := by
  intro i
  induction i with
  | zero =>
    intro _
    rw [h0]
    exact ⟨rfl, Or.inl ⟨rfl, rfl, rfl, rfl, rfl, rfl, rfl, Or.inl ⟨rfl, fun t ht => by omega⟩⟩⟩
  | succ i ih =>
    intro hi
    obtain ⟨ih1, ih2⟩ := ih (by omega)
    obtain ⟨hH, hQ⟩ := hn i (by omega)
    refine ⟨by rw [hQ]; rfl, ?_⟩
    rw [hQ]
    unfold Sim.DayPhases.next
    rcases ih2 with ⟨a1, a2, a3, a4, a5, a6, a7, ⟨b1, b2⟩ | ⟨b1, R, hR, b2, b3, b4, b5⟩⟩ |
      ⟨b1, R, A, rfl, b2, b3, hA, ⟨a1, a2, a3, f1, f2, f3, f4, f5⟩ | ⟨a1, a2, E, hAE, hE, e1, e2, e3, e4, e5⟩⟩
    · -- the first recovery
      left
      simp only [b1, if_true]
      unfold Sim.DayPhases.recover
      by_cases hrec : Recovered v S i
      · have hcond : (!decide (v i ≠ 0 ∧ v (i + 1) ≠ 0) && (H i && !(S (i + 1)).isHeating)) = true := by
          obtain ⟨r1, r2, r3⟩ := hrec
          rw [hH.mpr r2, r3, decide_eq_false r1]; rfl
        simp only [hcond, if_true]
        exact ⟨a1, a2, a3, a4, a5, a6, a7, Or.inr ⟨by simp, i, by omega, hrec, b2, by simp, by omega⟩⟩
      · have hcond : ¬ (!decide (v i ≠ 0 ∧ v (i + 1) ≠ 0) && (H i && !(S (i + 1)).isHeating)) = true := by
          intro h
          apply hrec
          simp only [Bool.and_eq_true, Bool.not_eq_true', decide_eq_false_iff_not] at h
          exact ⟨h.1, hH.mp h.2.1, h.2.2⟩
        simp only [hcond, Bool.false_eq_true, if_false]
        refine ⟨a1, a2, a3, a4, a5, a6, a7, Or.inl ⟨b1, fun j hj => ?_⟩⟩
        rcases Nat.lt_succ_iff_lt_or_eq.mp hj with h | rfl
        · exact b2 j h
        · exact hrec
    · -- the five minutes after it
      simp only [b1, a1, a2, Bool.false_eq_true, if_false, Bool.not_false, Bool.true_and, decide_eq_true_eq]
      by_cases ht : (i : ℚ) > (Q i).recoveryEnd_min + 5
      · rw [if_pos ht]
        rw [b4] at ht
        have hle : i = R + 6 := by
          have : R + 5 < i := by exact_mod_cast ht
          omega
        right
        refine ⟨rfl, R, R + 6, rfl, b2, b3, by omega, Or.inl ⟨rfl, rfl, fun t h1 h2 => by omega, ?_, ?_, ?_, ?_, ?_⟩⟩
        · simp only [hle]
        · simp only [hle]
        · have : Finset.Ioo (R + 6) (i + 1) = ∅ := by ext; simp; omega
          rw [this]; simpa using a5
        · have : Finset.Ioo (R + 6) (i + 1) = ∅ := by ext; simp; omega
          rw [this]; simpa using a6
        · have : Finset.Ioo (R + 6) (i + 1) = ∅ := by ext; simp; omega
          rw [this]; simpa using a7
      · rw [if_neg ht]
        rw [b4] at ht
        have hle : i ≤ R + 5 := by
          have : ¬ R + 5 < i := by exact_mod_cast ht
          omega
        left
        exact ⟨a1, a2, a3, a4, a5, a6, a7, Or.inr ⟨b1, R, by omega, b2, b3, b4, by omega⟩⟩
    · -- the standby period
      right
      refine ⟨by split_ifs <;> simp_all [Sim.DayPhases.endStandby], R, R + 6, rfl, b2, b3, by omega, ?_⟩
      simp only [b1, a1, if_true, Bool.false_eq_true, if_false]
      have h8 : ((i : ℚ) ≥ (Q i).standbyStart_min + 8 * minPerHr) ↔ R + 6 + 480 ≤ i := by
        rw [f1, show (8 : ℚ) * minPerHr = 480 by norm_num [minPerHr]]
        constructor
        · intro h
          have : ((R + 6 + 480 : ℕ) : ℚ) ≤ (i : ℚ) := by push_cast at h ⊢; linarith
          exact_mod_cast this
        · intro h
          have : ((R + 6 + 480 : ℕ) : ℚ) ≤ (i : ℚ) := by exact_mod_cast h
          push_cast at this ⊢; linarith
      by_cases hend : StandbyEnds v S (R + 6) i
      · right
        have hp : ∀ P : Sim.DayPhases, (if (decide (v i ≠ 0 ∧ v (i + 1) ≠ 0) || (S (i + 1)).isHeating) = true then
            (Q i).endStandby i else if (i : ℚ) ≥ (Q i).standbyStart_min + 8 * minPerHr then (Q i).endStandby i
            else P) = (Q i).endStandby i := by
          intro P
          rcases hend with h | h | h
          · rw [if_pos (by simp only [Bool.or_eq_true, decide_eq_true_eq]; exact Or.inl h)]
          · rw [if_pos (by simp only [Bool.or_eq_true]; exact Or.inr h)]
          · split_ifs
            · rfl
            · rfl
            next hh => exact absurd (h8.mpr h) hh
        rw [hp]
        exact ⟨rfl, rfl, i, by omega, by omega, hend, a3, rfl, ih1, f1, f2, f3, f4, f5⟩
      · left
        have hd1 : ¬ (decide (v i ≠ 0 ∧ v (i + 1) ≠ 0) || (S (i + 1)).isHeating) = true := by
          intro h
          apply hend
          simp only [Bool.or_eq_true, decide_eq_true_eq] at h
          rcases h with h | h
          · exact Or.inl h
          · exact Or.inr (Or.inl h)
        have hd2 : ¬ (i : ℚ) ≥ (Q i).standbyStart_min + 8 * minPerHr := fun h =>
          hend (Or.inr (Or.inr (h8.mp h)))
        rw [if_neg hd1, if_neg hd2]
        have hnot : i ∉ Finset.Ioo (R + 6) i := by simp
        refine ⟨rfl, a2, fun t h1 h2 => ?_, f1, f2, ?_, ?_, ?_⟩
        · rcases Nat.lt_succ_iff_lt_or_eq.mp h2 with h | rfl
          · exact a3 t h1 h
          · exact hend
        · rw [Ioo_succ hA, Finset.sum_insert hnot, ← f3]; ring
        · rw [Ioo_succ hA, Finset.sum_insert hnot, ← f4]; ring
        · rw [Ioo_succ hA, Finset.card_insert_of_notMem hnot, Nat.cast_succ, add_mul, one_mul, ← f5]
    · -- afterwards
      right
      simp only [b1, a1, a2, Bool.false_eq_true, if_false, Bool.not_true, Bool.false_and]
      exact ⟨trivial, R, R + 6, rfl, b2, b3, by omega, Or.inr ⟨trivial, trivial, E, hAE, by omega, e1, e2, e3, e4, e5⟩⟩

/-! ## The figures -/

/-- **C73.** The standby figures of a 24-hour test that returned. If there is a standby period, of minutes `A`
to `B`, its duration is given as `B - A - 1` minutes. With a positive duration and recovery efficiency the hourly
loss is the electricity used after minute `A`, less the change of the tank's heat content since then per
recovery efficiency, per hour; the loss coefficient is this loss per difference of the sums of the
tank's and the room's temperatures over the `B - A` minutes divided by `B - A - 1`. -/
theorem C73_standby_partial (m : Libm) (fuel limit : ℕ) (c : TestConditions) (des : Designation)
    (s s' : Sim n k) (r : Sim.TestSummary k)
    (hu : ∀ s1, s.applyTestSetpoint = .ok s1 → Usable s1)
    (h : s.run24hrTest m fuel limit c des = .ok (s', r)) :
    ∃ S : ℕ → Sim n k, TestDay m fuel c (prescribed s.tank.volume_L (drawPatterns des)) S ∧ S 1441 = s' ∧
      (r.qualifies = true ↔ (∃ t < 1441, (S (t + 1)).isHeating = true) ∧
        ¬ (prescribed s.tank.volume_L (drawPatterns des) 1440 ≠ 0 ∧
          prescribed s.tank.volume_L (drawPatterns des) 1441 ≠ 0)) ∧
      (∀ A B, StandbyPeriod (prescribed s.tank.volume_L (drawPatterns des)) S A B →
        r.standbyPeriodDuration_h * 60 = (B : ℚ) - A - 1 ∧
        (0 < r.standbyPeriodDuration_h → 0 < r.recoveryEfficiency →
          r.standbyHourlyLoss_kJperh * r.standbyPeriodDuration_h = ∑ t ∈ Finset.Ioc A B, usedIn S t -
            waterHeat s.tank.volume_L ((S (B + 1)).averageT - (S (A + 1)).averageT) / r.recoveryEfficiency ∧
          (∑ t ∈ Finset.Ioc A B, ((S (t + 1)).averageT - c.ambientT) ≠ 0 →
            r.standbyLossCoefficient *
              ((∑ t ∈ Finset.Ioc A B, ((S (t + 1)).averageT - c.ambientT)) / ((B : ℚ) - A - 1)) =
              r.standbyHourlyLoss_kJperh) ∧
          (∑ t ∈ Finset.Ioc A B, ((S (t + 1)).averageT - c.ambientT) = 0 → r.standbyLossCoefficient = 0)) ∧
        (r.standbyPeriodDuration_h ≤ 0 ∨ r.recoveryEfficiency ≤ 0 →
          r.standbyHourlyLoss_kJperh = 0 ∧ r.standbyLossCoefficient = 0)) ∧
      ((∀ A B, ¬ StandbyPeriod (prescribed s.tank.volume_L (drawPatterns des)) S A B) →
        r.standbyPeriodDuration_h * 60 = 1439 ∧ r.standbyLossCoefficient = 0 ∧
        (0 < r.recoveryEfficiency → r.standbyHourlyLoss_kJperh * r.standbyPeriodDuration_h =
          - (waterHeat s.tank.volume_L s'.averageT / r.recoveryEfficiency))) := by
  obtain ⟨s2, before, d, p2, v2, h4, h5, e⟩ := day_parts (usable_kept m fuel c) hu h
  have hV : 0 < s.tank.volume_L := v2 ▸ (usable_kept m fuel c).volume s2 p2
  obtain ⟨S, a0, a1, a2, a3, a4, a5, b1, b2, b3, b4, b5, b6, b7, b8, b9, Q, H, c0, c1, c2⟩ :=
    day_loop (usable_kept m fuel c) hV (C50_patterns des).1 s2.averageT 1441 0 _ d p2 v2 rfl h4
  simp only [Nat.zero_add] at a2 a5 b6 c2
  have a0 : S 0 = s2 := a0
  set v := prescribed s.tank.volume_L (drawPatterns des) with hv
  have hph := standby_phases (count := 1441) (c := c) (T0 := s2.averageT)
    (v := v) (S := S) (Q := Q) (H := H)
    (by rw [c0, a0]; rfl) (fun i hi => by
      obtain ⟨f1, f2⟩ := c2 i hi
      refine ⟨?_, f2⟩
      rw [f1]
      simp [Sim.Day.init]) 1441 le_rfl
  rw [c1] at hph
  obtain ⟨hprev, hph⟩ := hph
  unfold Sim.summarize at h5
  split_ifs at h5 with hz
  have h5 := Except.ok.inj h5
  have heff : r.recoveryEfficiency = d.phases.close.efficiency := by rw [← h5]; rfl
  have hfig : (r.standbyPeriodDuration_h, r.standbyHourlyLoss_kJperh, r.standbyLossCoefficient) =
      Sim.standbyFigures d.phases.close (cpWater * rhoWater * s.tank.volume_L) r.recoveryEfficiency := by
    rw [heff, ← h5, ← a4]; rfl
  refine ⟨S, fun t ht => (a2 t ht).2.2, a1.trans e.symm, ?_, fun A B hAB => ?_, fun hno => ?_⟩
  · have hq : r.qualifies = (d.sums.hasHeated && !d.schedule.isDrawing) := by rw [← h5]; rfl
    rw [hq, Bool.and_eq_true, b6, Bool.not_eq_true', ← Bool.not_eq_true, a5,
      drawing_iff hV (C50_patterns des).1 1440]
    simp [Sim.Day.init, hv]
  · -- a standby period
    have key : ∃ p, d.phases.close = p ∧ StandbyFigures p c S A (Finset.Ioc A B) ∧
        p.standbyEnd_min = B ∧ p.standbyEndT = (S (B + 1)).averageT := by
      obtain ⟨R, rfl, hR, hR'⟩ := hAB.recovered
      have uniq : ∀ R', Recovered v S R' → (∀ t < R', ¬ Recovered v S t) → R' = R := by
        intro R' r1 r2
        rcases lt_trichotomy R R' with hlt | rfl | hlt
        · exact absurd hR (r2 R hlt)
        · rfl
        · exact absurd r1 (hR' R' hlt)
      have ho := hAB.order
      have hd := hAB.day
      rcases hph with ⟨x1, x2, x3, x4, x5, x6, x7, ⟨y1, y2⟩ | ⟨y1, R', hR'', y2, y3, y4, y5⟩⟩ |
        ⟨y1, R', A', rfl, y2, y3, hA, ⟨x1, x2, x3, f⟩ | ⟨x1, x2, E, hAE, hE, e1, e2, e3, e4, e5⟩⟩
      · exact absurd hR (y2 R (by omega))
      · have := uniq R' y2 y3; omega
      · obtain rfl := uniq R' y2 y3
        have hB : B = 1440 := by
          rcases hAB.ends with h' | h'
          · exact h'
          · by_contra hne
            exact x3 (B + 1) (by omega) (by omega) h'
        subst hB
        refine ⟨_, rfl, ?_⟩
        unfold Sim.DayPhases.close
        rw [x2]
        have : Finset.Ioc (R' + 6) 1440 = Finset.Ioo (R' + 6) 1441 := by ext; simp; omega
        rw [this]
        refine ⟨f, ?_, hprev⟩
        simp only [Bool.false_eq_true, if_false]
        norm_num [minPerHr]
      · obtain rfl := uniq R' y2 y3
        have hB : E = B + 1 := by
          rcases lt_trichotomy E (B + 1) with h' | h' | h'
          · exact absurd e1 (hAB.lasts E hAE (by omega))
          · exact h'
          · rcases hAB.ends with h'' | h''
            · omega
            · exact absurd h'' (e2 (B + 1) (by omega) h')
        subst hB
        refine ⟨_, rfl, ?_⟩
        unfold Sim.DayPhases.close
        rw [x2]
        have : Finset.Ioc (R' + 6) B = Finset.Ioo (R' + 6) (B + 1) := by ext; simp only [Finset.mem_Ioc, Finset.mem_Ioo]; omega
        rw [this]
        refine ⟨e5, ?_, e4⟩
        simp only [if_true]
        rw [e3]; push_cast; ring
    obtain ⟨p, hp, ⟨g1, g2, g3, g4, g5⟩, g6, g7⟩ := key
    rw [hp] at hfig
    unfold Sim.standbyFigures at hfig
    rw [g1, g2, g3, g4, g5, g6, g7] at hfig
    have hmin : minPerHr = 60 := rfl
    have ho : ((Finset.Ioc A B).card : ℚ) = (B : ℚ) - A := by
      rw [Nat.card_Ioc, Nat.cast_sub hAB.order]
    have hsum : ∑ t ∈ Finset.Ioc A B, ((S (t + 1)).averageT - c.ambientT)
        = ∑ t ∈ Finset.Ioc A B, (S (t + 1)).averageT - (Finset.Ioc A B).card * c.ambientT := by
      rw [Finset.sum_sub_distrib, Finset.sum_const, nsmul_eq_mul]
    simp only [hmin] at hfig
    by_cases hpos : ((B : ℚ) - A - 1) / 60 > 0 ∧ r.recoveryEfficiency > 0
    · rw [if_pos hpos] at hfig
      simp only [Prod.mk.injEq] at hfig
      obtain ⟨q1, q2, q3⟩ := hfig
      have hne : (B : ℚ) - A - 1 ≠ 0 := by
        intro h0; rw [h0] at hpos; norm_num at hpos
      refine ⟨by rw [q1]; ring, fun _ _ => ⟨?_, fun hT => ?_, fun hT => ?_⟩, fun hor => ?_⟩
      · rw [q2, q1, div_mul_cancel₀ _ hpos.1.ne']
        unfold waterHeat cpWater rhoWater
        ring
      · rw [← sub_div, ← hsum] at q3
        rw [if_pos (div_ne_zero hT hne), ← q2] at q3
        rw [q3]
        exact div_mul_cancel₀ _ (div_ne_zero hT hne)
      · rw [← sub_div, ← hsum, hT, zero_div] at q3
        simpa using q3
      · exfalso
        rw [q1] at hor
        rcases hor with h' | h'
        · exact absurd hpos.1 (not_lt.mpr h')
        · exact absurd hpos.2 (not_lt.mpr h')
    · rw [if_neg hpos] at hfig
      simp only [Prod.mk.injEq] at hfig
      obtain ⟨q1, q2, q3⟩ := hfig
      refine ⟨by rw [q1]; ring, fun k1 k2 => ?_, fun _ => ⟨q2, q3⟩⟩
      rw [q1] at k1
      exact absurd ⟨k1, k2⟩ hpos
  · -- no standby period
    have key : d.phases.standbyEnded = false ∧ d.phases.standbyStart_min = 0 ∧ d.phases.standbyStartT = 0 ∧
        d.phases.standbyUsed_kJ = 0 ∧ d.phases.standbyTankT = 0 ∧ d.phases.standbyAmbientT = 0 := by
      rcases hph with ⟨x1, x2, x3, x4, x5, x6, x7, -⟩ |
        ⟨y1, R', A', rfl, y2, y3, hA, ⟨x1, x2, x3, f⟩ | ⟨x1, x2, E, hAE, hE, e1, e2, e3, e4, e5⟩⟩
      · exact ⟨x2, x3, x4, x5, x6, x7⟩
      · exact absurd ⟨⟨R', rfl, y2, y3⟩, by omega, le_rfl, fun t h1 h2 => x3 t h1 (by omega), Or.inl rfl⟩
          (hno (R' + 6) 1440)
      · exact absurd ⟨⟨R', rfl, y2, y3⟩, by omega, by omega, fun t h1 h2 => e2 t h1 (by omega),
          Or.inr (by rw [Nat.sub_add_cancel (by omega)]; exact e1)⟩ (hno (R' + 6) (E - 1))
    obtain ⟨x2, x3, x4, x5, x6, x7⟩ := key
    unfold Sim.standbyFigures Sim.DayPhases.close at hfig
    simp only [x2, Bool.false_eq_true, if_false, x3, x4, x5, x6, x7, hprev, show minPerHr = 60 from rfl] at hfig
    by_cases hpos : r.recoveryEfficiency > 0
    · rw [if_pos ⟨by norm_num, hpos⟩] at hfig
      simp only [Prod.mk.injEq] at hfig
      obtain ⟨q1, q2, q3⟩ := hfig
      refine ⟨by rw [q1]; norm_num, by rw [q3]; simp, fun _ => ?_⟩
      rw [q2, q1, e, ← a1]
      unfold waterHeat cpWater rhoWater
      ring
    · rw [if_neg fun h' => hpos h'.2] at hfig
      simp only [Prod.mk.injEq] at hfig
      obtain ⟨q1, q2, q3⟩ := hfig
      exact ⟨by rw [q1]; norm_num, q3, fun h' => absurd h' hpos⟩

/-- A water heater whose test has a standby period, of the minutes 8 to 59: after the recovery from the first
draw, which ends in minute 2, until the second draw. -/
example : ∃ (S : ℕ → Sim 1 1) (s' : Sim 1 1) (r : Sim.TestSummary 1),
    daySim.run24hrTest sampleLibm 5 100 testConditionsUEF .verySmall = .ok (s', r) ∧
    TestDay sampleLibm 5 testConditionsUEF (prescribed daySim.tank.volume_L (drawPatterns .verySmall)) S ∧
    StandbyPeriod (prescribed daySim.tank.volume_L (drawPatterns .verySmall)) S 8 59 := by
  obtain ⟨s', r', hr, -⟩ := daySim_returns
  have e : ∃ x, daySim.applyTestSetpoint = .ok x := by
    unfold Sim.applyTestSetpoint
    rw [if_pos (by decide +kernel)]
    unfold Sim.setSetpoint
    rw [if_pos (by decide +kernel)]
    exact ⟨_, rfl⟩
  obtain ⟨x, hx⟩ := e
  obtain ⟨hl, rfl⟩ := daySim_like x hx
  obtain ⟨s2, h2, l2⟩ := prep_returns daySim hl 97
  obtain ⟨r, h3, l3⟩ := idle_returns 60 100 0 s2 [] rfl (by norm_num) l2
  obtain ⟨d, h4⟩ := day_returns 1441 0 (Sim.Day.init .verySmall r.1
    (r.2.2.map fun x => { x with time_min := x.time_min - r.2.1 })) .full r.1.averageT l3 dayRun_accepts
  have hu : Usable r.1 := by
    have u2 := (prep_keeps (usable_kept sampleLibm 5 testConditionsUEF) _ (by decide +kernel)
      _ _ _ _ _ daySim_usable h2).1
    exact (idle_keeps (usable_kept sampleLibm 5 testConditionsUEF) _ _ _ _ _ _ u2 h3).1
  obtain ⟨S, a0, a1, a2, -⟩ := day_loop (usable_kept sampleLibm 5 testConditionsUEF)
    (V := 60) (by norm_num) (C50_patterns .verySmall).1 r.1.averageT 1441 0 _ d hu l3.volume rfl h4
  simp only [Nat.zero_add] at a2
  refine ⟨S, s', r', hr, fun t ht => (a2 t ht).2.2, ?_⟩
  change StandbyPeriod (prescribed 60 (drawPatterns .verySmall)) S 8 59
  have hon : ∀ i ≤ 61, (S i).isHeating = decide (i = 1 ∨ i = 2 ∨ i = 61) := by
    intro i hi
    have key : ∀ i ≤ 61, ∃ e, dayEnd 0 i (Sim.Schedule.init (drawPatterns .verySmall)) .full = some e ∧
        e.on = decide (i = 1 ∨ i = 2 ∨ i = 61) := by
      have : ∀ i ≤ 61, (dayEnd 0 i (Sim.Schedule.init (drawPatterns .verySmall)) .full).map Stage.on =
          some (decide (i = 1 ∨ i = 2 ∨ i = 61)) := by decide +kernel
      intro i hi
      obtain ⟨e, he, ho⟩ := Option.map_eq_some_iff.mp (this i hi)
      exact ⟨e, he, ho⟩
    obtain ⟨e, he, ho⟩ := key i hi
    have := (day_states i 0 .full e (S := S) (by rw [a0]; exact l3) he
      fun j _ hj => (a2 j (by omega)).2.2).1
    rw [Nat.zero_add] at this
    rw [this.isHeating, ho]
  have hv : ∀ t ≤ 61, (prescribed 60 (drawPatterns .verySmall) t ≠ 0 ↔ t = 0 ∨ t = 1 ∨ t = 60) := by
    decide +kernel
  refine ⟨⟨2, rfl, ⟨?_, ⟨0, by norm_num, ?_⟩, ?_⟩, fun t ht hr => ?_⟩, by norm_num, by norm_num, ?_, Or.inr ?_⟩
  · rw [hv 2 (by norm_num)]; simp
  · rw [hon 1 (by norm_num)]; simp
  · rw [hon 3 (by norm_num)]; simp
  · have := hr.2.2
    rw [hon (t + 1) (by omega)] at this
    simp at this
    omega
  · rintro t h1 h2 (h | h | h)
    · have := (hv t (by omega)).mp h.1
      omega
    · rw [hon (t + 1) (by omega)] at h
      simp at h
      omega
    · omega
  · refine Or.inr (Or.inl ?_)
    rw [hon 61 le_rfl]; simp

end HPWH
