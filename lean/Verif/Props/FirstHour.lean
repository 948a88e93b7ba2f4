import Verif.Spec.FirstHour
import Verif.Props.DayExample

/-! # C74: the first-hour rating -/

namespace HPWH

open Spec _root_.HPWH.Units

variable {n k : ℕ}

/-! ## The history of the loop -/

/-- The state after a minute that went on. -/
def Sim.RatingState.counted (r : Sim.RatingState) (v : ℚ) : Sim.RatingState :=
  { r with draw_L := r.draw_L + v, elapsed_min := r.elapsed_min + 1 }

theorem rating_trace {m : Libm} {fuel : ℕ} {c : TestConditions} {flow : ℚ} :
    ∀ (limit : ℕ) (s s' : Sim n k) (r : Sim.RatingState) (R : ℚ),
    Sim.ratingLoop m fuel c flow limit s r = .ok (s', R) →
    ∃ (E : ℕ) (S : ℕ → Sim n k) (Q : ℕ → Sim.RatingState), S 0 = s ∧ Q 0 = r ∧ S (E + 1) = s' ∧
      (∀ t ≤ E, Sim.testStep m fuel c (Q t).dr (S t) ((S t).limitDraw flow (Q t).isDrawing) = .ok (S (t + 1))) ∧
      (∀ t < E, ∃ q, (Q t).next ((S t).limitDraw flow (Q t).isDrawing) (outletOf S t) (S (t + 1)).averageT
          (S (t + 1)).isHeating = .ok (.inr q) ∧
        Q (t + 1) = q.counted ((S t).limitDraw flow (Q t).isDrawing)) ∧
      (Q E).next ((S E).limitDraw flow (Q E).isDrawing) (outletOf S E) (S (E + 1)).averageT
        (S (E + 1)).isHeating = .ok (.inl R) := by
  intro limit
  induction limit with
  | zero => intro s s' r R h; cases h
  | succ limit ih =>
    intro s s' r R h
    rw [Sim.ratingLoop] at h
    obtain ⟨s1, h1, h⟩ := (bind_ok_iff _ _ _).mp h
    obtain ⟨x, h2, h⟩ := (bind_ok_iff _ _ _).mp h
    cases x with
    | inl R' =>
      simp only [Except.ok.injEq, Prod.mk.injEq] at h
      obtain ⟨rfl, rfl⟩ := h
      refine ⟨0, precede s fun _ => s1, fun _ => r, rfl, rfl, rfl, fun t ht => ?_, fun t ht => by omega, h2⟩
      obtain rfl : t = 0 := by omega
      exact h1
    | inr q =>
      simp only at h
      obtain ⟨E, S, Q, a0, a1, a2, a3, a4, a5⟩ := ih _ _ _ _ h
      refine ⟨E + 1, precede s S, fun t => match t with | 0 => r | t + 1 => Q t, rfl, rfl, a2,
        fun t ht => ?_, fun t ht => ?_, a5⟩
      · match t with
        | 0 => change Sim.testStep m fuel c _ s _ = .ok (S 0); rw [a0]; exact h1
        | t + 1 => exact a3 t (by omega)
      · match t with
        | 0 =>
          refine ⟨q, ?_, a1⟩
          change r.next _ ((S 0).tank.outletT) (S 0).averageT (S 0).isHeating = _
          rw [a0]
          exact h2
        | t + 1 => exact a4 t (by omega)

/-! ## The phases -/

/-- Water delivered in the draws `l`, weighted with its temperature. -/
def sumOutlet (S : ℕ → Sim n k) (l : List (ℕ × ℕ)) : ℚ :=
  (l.map fun d => ∑ t ∈ Finset.Icc d.1 d.2, outletOf S t).sum

/-- All minutes of the draws `l`. -/
def allMinutes (l : List (ℕ × ℕ)) : ℚ := (l.map fun d => (d.2 : ℚ) - d.1 + 1).sum

theorem sumOutlet_append (S : ℕ → Sim n k) (l : List (ℕ × ℕ)) (b e : ℕ) :
    sumOutlet S (l ++ [(b, e)]) = sumOutlet S l + ∑ t ∈ Finset.Icc b e, outletOf S t := by
  simp [sumOutlet]

theorem allMinutes_append (l : List (ℕ × ℕ)) (b e : ℕ) :
    allMinutes (l ++ [(b, e)]) = allMinutes l + ((e : ℚ) - b + 1) := by
  simp [allMinutes]

theorem countedMinutes_append (l : List (ℕ × ℕ)) (b e : ℕ) :
    countedMinutes (l ++ [(b, e)]) = countedMinutes l + ((e : ℚ) - b) := by
  simp [countedMinutes]

/-- What is remembered of the draws `l` when the next one has begun. -/
structure After (S : ℕ → Sim n k) (f : ℚ) (l : List (ℕ × ℕ)) (r : Sim.RatingState) : Prop where
  rating : r.rating_L = f * countedMinutes l
  first : r.firstDraw = decide (l = [])
  average : l ≠ [] → r.prevAverageOutletT = meanOutlet S l
  least : ∀ d, l.getLast? = some d → r.prevMinOutletT = outletOf S d.2

theorem Spec.Draws.ended {S : ℕ → Sim n k} {l : List (ℕ × ℕ)} {b : ℕ} (h : Draws S l b) : ∀ d ∈ l, d.2 < b := by
  induction h with
  | first => simp
  | @again l b e b' hd hl he hp ih =>
    obtain ⟨h, g, h1, h2, rfl, -⟩ := hp
    have := hl.order
    intro d hd
    rcases List.mem_append.mp hd with hd | hd
    · have := ih d hd
      omega
    · rw [List.mem_singleton] at hd
      subst hd
      change e < g + 1
      omega

theorem inDraws_append (l : List (ℕ × ℕ)) (b e u : ℕ) :
    InDraws (l ++ [(b, e)]) u ↔ InDraws l u ∨ (b ≤ u ∧ u ≤ e) := by
  simp [InDraws, or_and_right, exists_or]

theorem Spec.Draws.over {S : ℕ → Sim n k} {l : List (ℕ × ℕ)} {b e t : ℕ} (h : Draws S l b) (hb : b ≤ e) (ht : e < t) :
    ¬ InDraws (l ++ [(b, e)]) t := by
  rw [inDraws_append]
  rintro (⟨d, h1, h2, h3⟩ | ⟨h1, h2⟩)
  · have := h.ended d h1
    omega
  · omega

/-- Where the rating is before minute `t`. `D` tells in which minutes water was drawn. -/
inductive RatingAt (S : ℕ → Sim n k) (D : ℕ → Bool) (f : ℚ) (t : ℕ) (r : Sim.RatingState) : Prop
  | drawing (l : List (ℕ × ℕ)) (b : ℕ) (draws : Draws S l b) (after : After S f l r) (le : b ≤ t)
      (notYet : ∀ u, b ≤ u → u < t → ¬ Dropped S (comparedWith S l) b u)
      (phase : r.phase = .drawing) (isDrawing : r.isDrawing = true) (dr : r.dr = Sim.drLockCompressor)
      (drawn : r.draw_L = f * ((t : ℚ) - b))
      (drew : ∀ u < t, D u = true ↔ InDraws l u ∨ b ≤ u)
      (volume : r.sumVolume = f * (allMinutes l + ((t : ℚ) - b)))
      (volumeT : r.sumVolumeT = f * (sumOutlet S l + ∑ u ∈ Finset.Ico b t, outletOf S u))
      (most : ∀ x, x < r.maxOutletT ↔ x < comparedWith S l ∨ ∃ u, b ≤ u ∧ u < t ∧ x < outletOf S u)
  | waiting (l : List (ℕ × ℕ)) (b e : ℕ) (draws : Draws S l b) (lasts : DrawLasts S (comparedWith S l) b e)
      (hour : e < 60) (lt : e < t) (cold : ∀ u, e < u → u < t → ¬ heats S u)
      (phase : r.phase = .waitHeat) (isDrawing : r.isDrawing = false) (dr : r.dr = Sim.drAllow)
      (drew : ∀ u < t, D u = true ↔ InDraws (l ++ [(b, e)]) u)
      (rating : r.rating_L = f * countedMinutes (l ++ [(b, e)]))
      (average : r.prevAverageOutletT = meanOutlet S (l ++ [(b, e)]))
      (least : r.prevMinOutletT = outletOf S e) (mean : r.maxTankT = meanOf S e)
      (most : r.maxOutletT = outletOf S e)
      (volume : r.sumVolume = f * allMinutes (l ++ [(b, e)]))
      (volumeT : r.sumVolumeT = f * sumOutlet S (l ++ [(b, e)]))
  | heating (l : List (ℕ × ℕ)) (b e h : ℕ) (draws : Draws S l b) (lasts : DrawLasts S (comparedWith S l) b e)
      (hour : e < 60) (lt : e < h) (lt' : h < t) (cold : ∀ u, e < u → u < h → ¬ heats S u) (heat : heats S h)
      (warms : ∀ u, h < u → u < t → Warms S e h u)
      (phase : r.phase = .heating) (isDrawing : r.isDrawing = false) (dr : r.dr = Sim.drAllow)
      (drew : ∀ u < t, D u = true ↔ InDraws (l ++ [(b, e)]) u)
      (rating : r.rating_L = f * countedMinutes (l ++ [(b, e)]))
      (average : r.prevAverageOutletT = meanOutlet S (l ++ [(b, e)]))
      (least : r.prevMinOutletT = outletOf S e) (mean : r.maxTankT = meanOf S (if t = h + 1 then e else t - 1))
      (most : r.maxOutletT = outletOf S e)
      (volume : r.sumVolume = f * allMinutes (l ++ [(b, e)]))
      (volumeT : r.sumVolumeT = f * sumOutlet S (l ++ [(b, e)]))

theorem dropped_iff {S : ℕ → Sim n k} {T0 M : ℚ} {b t : ℕ} (hb : b ≤ t)
    (most : ∀ x, x < M ↔ x < T0 ∨ ∃ u, b ≤ u ∧ u < t ∧ x < outletOf S u) :
    outletOf S t < max (outletOf S t) M - dF_TO_dC 15 ↔ Dropped S T0 b t := by
  have e15 : dF_TO_dC 15 = 15 * (5 / 9) := by norm_num [dF_TO_dC, FperC]
  rw [e15, lt_sub_iff_add_lt, lt_max_iff, most]
  unfold Dropped
  simp only [lt_sub_iff_add_lt]
  constructor
  · rintro (h | h | ⟨u, h1, h2, h3⟩)
    · exfalso; linarith
    · exact Or.inl h
    · exact Or.inr ⟨u, h1, h2.le, h3⟩
  · rintro (h | ⟨u, h1, h2, h3⟩)
    · exact Or.inr (Or.inl h)
    · rcases Nat.lt_or_eq_of_le h2 with h2 | rfl
      · exact Or.inr (Or.inr ⟨u, h1, h2, h3⟩)
      · exfalso; linarith

theorem meanOf_eq (S : ℕ → Sim n k) (t : ℕ) : (S (t + 1)).averageT = meanOf S t := rfl

theorem comparedWith_append (S : ℕ → Sim n k) (l : List (ℕ × ℕ)) (b e : ℕ) :
    comparedWith S (l ++ [(b, e)]) = outletOf S e := by
  simp [comparedWith]

theorem Icc_eq_insert {b t : ℕ} (h : b ≤ t) : Finset.Icc b t = insert t (Finset.Ico b t) := by
  ext x; simp only [Finset.mem_Icc, Finset.mem_insert, Finset.mem_Ico]; omega

theorem Ico_succ' {b t : ℕ} (h : b ≤ t) : Finset.Ico b (t + 1) = insert t (Finset.Ico b t) := by
  ext x; simp only [Finset.mem_Ico, Finset.mem_insert]; omega

theorem next_elapsed {r q : Sim.RatingState} {v x y : ℚ} {g : Bool} (h : r.next v x y g = .ok (.inr q)) :
    q.elapsed_min = r.elapsed_min := by
  unfold Sim.RatingState.next at h
  split at h
  · simp only at h
    split_ifs at h
    · simp only [Except.map] at h
      split at h <;> simp at h
    · rw [← Sum.inr.inj (Except.ok.inj h)]; rfl
    · rw [← Sum.inr.inj (Except.ok.inj h)]
  · rw [← Sum.inr.inj (Except.ok.inj h)]
    split_ifs <;> rfl
  · split_ifs at h <;> rw [← Sum.inr.inj (Except.ok.inj h)]

/-- One minute that goes on. -/
theorem RatingAt.next {S : ℕ → Sim n k} {D : ℕ → Bool} {f v : ℚ} {t : ℕ} {r q : Sim.RatingState} (hf : 0 < f)
    (hv : v = if r.isDrawing then f else 0) (helapsed : r.elapsed_min = t) (hD : D t = r.isDrawing)
    (h : RatingAt S D f t r)
    (hq : r.next v (outletOf S t) (S (t + 1)).averageT (S (t + 1)).isHeating = .ok (.inr q)) :
    RatingAt S D f (t + 1) (q.counted v) := by
  rw [meanOf_eq] at hq
  unfold Sim.RatingState.next at hq
  cases h with
  | drawing l b draws after le notYet phase isDrawing dr drawn drew volume volumeT most =>
    rw [phase] at hq
    simp only at hq
    rw [isDrawing, if_pos rfl] at hv
    subst hv
    have hdi := dropped_iff (T0 := comparedWith S l) le most
    have hnot : t ∉ Finset.Ico b t := by simp
    split_ifs at hq with hd hz h60
    · exfalso
      simp only [Except.map] at hq
      split at hq <;> simp at hq
    · have hq := Sum.inr.inj (Except.ok.inj hq)
      subst hq
      have hvol : r.sumVolume + v = v * allMinutes (l ++ [(b, t)]) := by
        rw [volume, allMinutes_append]; ring
      have hvolT : r.sumVolumeT + v * outletOf S t = v * sumOutlet S (l ++ [(b, t)]) := by
        rw [volumeT, sumOutlet_append, Icc_eq_insert le, Finset.sum_insert hnot]; ring
      refine .waiting l b t draws ⟨le, hdi.mp hd, notYet⟩ (by omega) (by omega) (fun u h1 h2 => by omega) rfl rfl rfl
        (fun u hu => ?_) ?_ ?_ rfl rfl rfl hvol hvolT
      · rw [inDraws_append]
        rcases Nat.lt_succ_iff_lt_or_eq.mp hu with hu | rfl
        · rw [drew u hu]
          exact or_congr Iff.rfl ⟨fun h => ⟨h, hu.le⟩, fun h => h.1⟩
        · rw [hD, isDrawing]
          exact ⟨fun _ => Or.inr ⟨le, le_rfl⟩, fun _ => rfl⟩
      · change r.rating_L + r.draw_L = _
        rw [after.rating, drawn, countedMinutes_append]; ring
      · change (r.sumVolumeT + v * outletOf S t) / (r.sumVolume + v) = _
        rw [hvolT, hvol, mul_div_mul_left _ _ hf.ne']
        rfl
    · have hq := Sum.inr.inj (Except.ok.inj hq)
      subst hq
      refine .drawing l b draws ⟨after.rating, after.first, after.average, after.least⟩ (by omega)
        (fun u h1 h2 => ?_) rfl isDrawing dr ?_ (fun u hu => ?_) ?_ ?_ ?_
      · rcases Nat.lt_succ_iff_lt_or_eq.mp h2 with h2 | rfl
        · exact notYet u h1 h2
        · exact fun h => hd (hdi.mpr h)
      · change r.draw_L + v = _
        rw [drawn]; push_cast; ring
      · rcases Nat.lt_succ_iff_lt_or_eq.mp hu with hu | rfl
        · exact drew u hu
        · rw [hD, isDrawing]
          exact ⟨fun _ => Or.inr le, fun _ => rfl⟩
      · change r.sumVolume + v = _
        rw [volume]; push_cast; ring
      · change r.sumVolumeT + v * outletOf S t = _
        rw [volumeT, Ico_succ' le, Finset.sum_insert hnot]; ring
      · intro x
        change x < max (outletOf S t) r.maxOutletT ↔ _
        rw [lt_max_iff, most]
        constructor
        · rintro (h | h | ⟨u, h1, h2, h3⟩)
          · exact Or.inr ⟨t, le, by omega, h⟩
          · exact Or.inl h
          · exact Or.inr ⟨u, h1, by omega, h3⟩
        · rintro (h | ⟨u, h1, h2, h3⟩)
          · exact Or.inr (Or.inl h)
          · rcases Nat.lt_succ_iff_lt_or_eq.mp h2 with h2 | rfl
            · exact Or.inr (Or.inr ⟨u, h1, h2, h3⟩)
            · exact Or.inl h3
  | waiting l b e draws lasts hour lt cold phase isDrawing dr drew rating average least mean most volume volumeT =>
    rw [phase] at hq
    have hq := Sum.inr.inj (Except.ok.inj hq)
    subst hq
    have hdrew : ∀ u < t + 1, D u = true ↔ InDraws (l ++ [(b, e)]) u := by
      intro u hu
      rcases Nat.lt_succ_iff_lt_or_eq.mp hu with hu | rfl
      · exact drew u hu
      · rw [hD, isDrawing]
        exact ⟨fun h => by simp at h, fun h => absurd h (draws.over lasts.order lt)⟩
    by_cases hh : (S (t + 1)).isHeating = true
    · rw [if_pos hh]
      exact .heating l b e t draws lasts hour lt (by omega) cold hh (fun u h1 h2 => by omega) rfl isDrawing dr
        hdrew rating average least (by rw [if_pos rfl]; exact mean) most volume volumeT
    · rw [if_neg hh]
      refine .waiting l b e draws lasts hour (by omega) (fun u h1 h2 => ?_) phase isDrawing dr
        hdrew rating average least mean most volume volumeT
      rcases Nat.lt_succ_iff_lt_or_eq.mp h2 with h2 | rfl
      · exact cold u h1 h2
      · exact hh
  | heating l b e h draws lasts hour lt lt' cold heat warms phase isDrawing dr drew rating average least mean most
      volume volumeT =>
    rw [phase] at hq
    simp only at hq
    rw [mean, helapsed] at hq
    have hdrew : ∀ u < t + 1, D u = true ↔ InDraws (l ++ [(b, e)]) u := by
      intro u hu
      rcases Nat.lt_succ_iff_lt_or_eq.mp hu with hu | rfl
      · exact drew u hu
      · rw [hD, isDrawing]
        exact ⟨fun h => by simp at h, fun h => absurd h (draws.over lasts.order (lt.trans lt'))⟩
    by_cases hw : Warms S e h t
    · have hw' : meanOf S t > meanOf S (if t = h + 1 then e else t - 1) ∧
          (S (t + 1)).isHeating = true ∧ t < 60 := hw
      rw [if_pos hw'] at hq
      have hq := Sum.inr.inj (Except.ok.inj hq)
      subst hq
      refine .heating l b e h draws lasts hour lt (by omega) cold heat (fun u h1 h2 => ?_) rfl isDrawing dr
        hdrew rating average least ?_ most volume volumeT
      · rcases Nat.lt_succ_iff_lt_or_eq.mp h2 with h2 | rfl
        · exact warms u h1 h2
        · exact hw
      · rw [if_neg (show ¬ t + 1 = h + 1 by omega), Nat.add_sub_cancel]
        exact max_eq_left hw.1.le
    · have hw' : ¬ (meanOf S t > meanOf S (if t = h + 1 then e else t - 1) ∧
          (S (t + 1)).isHeating = true ∧ t < 60) := hw
      rw [if_neg hw'] at hq
      have hq := Sum.inr.inj (Except.ok.inj hq)
      subst hq
      rw [isDrawing, if_neg (by simp)] at hv
      subst hv
      refine .drawing (l ++ [(b, e)]) (t + 1)
        (.again draws lasts hour ⟨h, t, lt, lt', rfl, heat, cold, hw, warms⟩)
        ⟨rating, ?_, fun _ => average, fun d hd => ?_⟩ le_rfl (fun u h1 h2 => by omega) rfl rfl rfl ?_
        (fun u hu => (hdrew u hu).trans ⟨Or.inl, fun h => h.resolve_right (by omega)⟩) ?_ ?_ ?_
      · simp [Sim.RatingState.counted]
      · simp only [List.getLast?_append, List.getLast?_singleton, Option.some_or, Option.some.injEq] at hd
        subst hd
        exact least
      · change (0 : ℚ) + 0 = _
        ring
      · change r.sumVolume = _
        rw [volume]; ring
      · change r.sumVolumeT = _
        rw [volumeT]; simp
      · intro x
        change x < r.maxOutletT ↔ _
        rw [most, comparedWith_append]
        constructor
        · exact Or.inl
        · rintro (h | ⟨u, h1, h2, -⟩)
          · exact h
          · omega

/-- The last minute. -/
theorem RatingAt.last {S : ℕ → Sim n k} {D : ℕ → Bool} {f v R : ℚ} {t : ℕ} {r : Sim.RatingState} (hf : 0 < f)
    (hv : v = if r.isDrawing then f else 0) (helapsed : r.elapsed_min = t) (h : RatingAt S D f t r)
    (hq : r.next v (outletOf S t) (S (t + 1)).averageT (S (t + 1)).isHeating = .ok (.inl R)) :
    ∃ l b, Draws S l b ∧ DrawLasts S (comparedWith S l) b t ∧ 60 ≤ t ∧ r.isDrawing = true ∧
      (∀ u < t, D u = true ↔ InDraws l u ∨ b ≤ u) ∧
      R = f * countedMinutes l + lastShare S l b t * (f * ((t : ℚ) - b)) := by
  rw [meanOf_eq] at hq
  unfold Sim.RatingState.next at hq
  cases h with
  | drawing l b draws after le notYet phase isDrawing dr drawn drew volume volumeT most =>
    rw [phase] at hq
    simp only at hq
    rw [isDrawing, if_pos rfl] at hv
    subst hv
    have hdi := dropped_iff (T0 := comparedWith S l) le most
    have hnot : t ∉ Finset.Ico b t := by simp
    split_ifs at hq with hd hz h60
    · refine ⟨l, b, draws, ⟨le, hdi.mp hd, notYet⟩, by omega, isDrawing, drew, ?_⟩
      have hvol : r.sumVolume + v = v * allMinutes (l ++ [(b, t)]) := by
        rw [volume, allMinutes_append]; ring
      have hvolT : r.sumVolumeT + v * outletOf S t = v * sumOutlet S (l ++ [(b, t)]) := by
        rw [volumeT, sumOutlet_append, Icc_eq_insert le, Finset.sum_insert hnot]; ring
      have hmean : (r.sumVolumeT + v * outletOf S t) / (r.sumVolume + v) = meanOutlet S (l ++ [(b, t)]) := by
        rw [hvolT, hvol, mul_div_mul_left _ _ hf.ne']
        rfl
      rw [hmean] at hq
      unfold Sim.RatingState.lastDraw at hq
      simp only at hq
      rcases List.eq_nil_or_concat l with rfl | ⟨l', d, hc⟩
      · rw [after.first, if_pos (by simp)] at hq
        have hq := Sum.inl.inj (Except.ok.inj hq)
        rw [← hq, after.rating, drawn]
        simp [lastShare]
      · rw [List.concat_eq_append] at hc
        subst hc
        have hl : (l' ++ [d]).getLast? = some d := by simp
        rw [after.first, if_neg (by simp), after.average (by simp), after.least d hl] at hq
        split_ifs at hq with h0
        · cases hq
        have hq := Sum.inl.inj (Except.ok.inj hq)
        rw [← hq, after.rating, drawn]
        unfold lastShare
        rw [hl]
    · simp at hq
    · simp at hq
  | waiting l b e draws lasts hour lt cold phase =>
    rw [phase] at hq
    simp at hq
  | heating l b e h draws lasts hour lt lt' cold heat warms phase =>
    rw [phase] at hq
    simp only at hq
    split_ifs at hq <;> simp at hq

/-- **C74.** If the first-hour rating returns, what it did is: from the prepared system, draws at 3 gallons
a minute (1.5 from tanks below 20 gallons, and never more than the tank holds) with the compressor locked
out, each until the water is 15 °F colder than it was, and pauses between them without a draw until the tank,
being heated, no longer becomes warmer, or an hour is over. The draw that is going on at the end of the first
hour is the last one. The rating is the water of the draws, that of the last one in proportion to the mean
temperatures, except that the last minute of each draw is not counted. -/
theorem C74_first_hour_partial (m : Libm) (fuel limit : ℕ) (s s' : Sim n k) (R : ℚ) (d : Designation)
    (hu : ∀ s1, s.applyTestSetpoint = .ok s1 → Usable s1)
    (h : s.findFirstHourRating m fuel limit = .ok (s', R, d)) :
    ∃ s1 s2 f, s.applyTestSetpoint = .ok s1 ∧ s1.prepareForTest m fuel limit testConditionsUEF = .ok s2 ∧
      f = min (if s.tank.volume_L < galLitres 20 then galLitres (3 / 2) else galLitres 3) s.tank.volume_L ∧
      ∃ (S : ℕ → Sim n k) (l : List (ℕ × ℕ)) (b e : ℕ), S 0 = s2 ∧ S (e + 1) = s' ∧
        Draws S l b ∧ DrawLasts S (comparedWith S l) b e ∧ 60 ≤ e ∧
        (∀ t ≤ e, InDraws (l ++ [(b, e)]) t →
          TestMinute m fuel testConditionsUEF ⟨true, false, false, false⟩ f (S t) (S (t + 1))) ∧
        (∀ t ≤ e, ¬ InDraws (l ++ [(b, e)]) t → TestMinute m fuel testConditionsUEF noSignal 0 (S t) (S (t + 1))) ∧
        R = f * countedMinutes l + lastShare S l b e * (f * ((e : ℚ) - b)) := by
  unfold Sim.findFirstHourRating at h
  obtain ⟨s1, h1, h⟩ := (bind_ok_iff _ _ _).mp h
  obtain ⟨s2, h2, h⟩ := (bind_ok_iff _ _ _).mp h
  obtain ⟨⟨s3, R'⟩, h3, h⟩ := (bind_ok_iff _ _ _).mp h
  have h := Except.ok.inj h
  simp only [Prod.mk.injEq] at h
  obtain ⟨rfl, rfl, -⟩ := h
  have hK := usable_kept (n := n) (k := k) m fuel testConditionsUEF
  have u1 := hu s1 h1
  have hv1 : s1.tank.volume_L = s.tank.volume_L := by
    unfold Sim.applyTestSetpoint Sim.setSetpoint at h1
    split_ifs at h1 <;> (obtain rfl := Except.ok.inj h1; rfl)
  have hpos : ∀ x : Sim n k, 0 < x.testFlow := by
    intro x
    unfold Sim.testFlow
    split_ifs <;> norm_num [GAL_TO_L, LPerGal]
  obtain ⟨u2, hv2⟩ := prep_keeps hK _ (hpos s1).le _ _ _ _ _ u1 h2
  have hV : 0 < s.tank.volume_L := by rw [← hv1]; exact hK.volume s1 u1
  obtain ⟨E, S, Q, a0, q0, a1, a2, a3, a4⟩ := rating_trace _ _ _ _ _ h3
  set f := min s.testFlow s.tank.volume_L with hf
  have hf0 : 0 < f := lt_min (hpos s) hV
  have hlim : ∀ (x : Sim n k) (g : Bool), x.tank.volume_L = s.tank.volume_L →
      x.limitDraw s.testFlow g = if g then f else 0 := by
    intro x g hx
    unfold Sim.limitDraw
    rw [hx]
    cases g with
    | true =>
      simp only [if_true, mul_one]
      split_ifs with hh
      · rw [hf, min_eq_right hh.le]
      · rw [hf, min_eq_left (not_lt.mp hh)]
    | false =>
      simp only [Bool.false_eq_true, if_false]
      rw [if_neg (not_lt.mpr hV.le)]
  have hkept : ∀ t ≤ E + 1, Usable (S t) ∧ (S t).tank.volume_L = s.tank.volume_L := by
    intro t
    induction t with
    | zero => intro _; rw [a0]; exact ⟨u2, hv2.trans hv1⟩
    | succ t ih =>
      intro ht
      obtain ⟨i1, i2⟩ := ih (by omega)
      have := a2 t (by omega)
      rw [hlim _ _ i2] at this
      obtain ⟨j1, j2⟩ := hK.step _ _ _ _ i1 (by split_ifs; exacts [hf0.le, le_rfl]) this
      exact ⟨j1, j2.trans i2⟩
  have hat : ∀ t ≤ E, (Q t).elapsed_min = t ∧ RatingAt S (fun u => (Q u).isDrawing) f t (Q t) := by
    intro t
    induction t with
    | zero =>
      intro _
      rw [q0]
      refine ⟨rfl, .drawing [] 0 .first ⟨?_, rfl, fun h => absurd rfl h, fun d hd => by simp at hd⟩ le_rfl
        (fun u h1 h2 => by omega) rfl rfl rfl ?_ (fun u hu => by omega) ?_ ?_ ?_⟩
      · simp [countedMinutes]
      · simp
      · simp [allMinutes]
      · simp [sumOutlet]
      · intro x
        simp [comparedWith]
    | succ t ih =>
      intro ht
      obtain ⟨i1, i2⟩ := ih (by omega)
      obtain ⟨q, hq, e⟩ := a3 t (by omega)
      have hl := hlim (S t) (Q t).isDrawing (hkept t (by omega)).2
      refine ⟨?_, ?_⟩
      · rw [e]
        change q.elapsed_min + 1 = t + 1
        rw [next_elapsed hq, i1]
      · rw [e]
        exact i2.next hf0 hl i1 rfl hq
  obtain ⟨i1, i2⟩ := hat E le_rfl
  obtain ⟨l, b, g1, g2, g3, g4, g5, g6⟩ := i2.last hf0 (hlim (S E) _ (hkept E (by omega)).2) i1 a4
  have hdr : ∀ t ≤ E, (Q t).dr = if (Q t).isDrawing then Sim.drLockCompressor else Sim.drAllow := by
    intro t ht
    cases (hat t ht).2 with
    | drawing l b _ _ _ _ _ h1 h2 => rw [h1, h2]; rfl
    | waiting l b e _ _ _ _ _ _ h1 h2 => rw [h1, h2]; rfl
    | heating l b e h _ _ _ _ _ _ _ _ _ h1 h2 => rw [h1, h2]; rfl
  have hin : ∀ t ≤ E, (Q t).isDrawing = true ↔ InDraws (l ++ [(b, E)]) t := by
    intro t ht
    rw [inDraws_append]
    rcases Nat.lt_or_eq_of_le ht with ht' | rfl
    · exact (g5 t ht').trans (or_congr Iff.rfl ⟨fun h => ⟨h, ht⟩, fun h => h.1⟩)
    · exact ⟨fun _ => Or.inr ⟨g2.order, le_rfl⟩, fun _ => g4⟩
  refine ⟨s1, s2, f, h1, h2, rfl, S, l, b, E, a0, a1, g1, g2, g3, fun t ht hd => ?_, fun t ht hd => ?_, g6⟩
  · have := a2 t ht
    rw [hlim _ _ (hkept t (by omega)).2, hdr t ht, if_pos ((hin t ht).mpr hd), if_pos ((hin t ht).mpr hd)] at this
    exact this
  · have := a2 t ht
    rw [hlim _ _ (hkept t (by omega)).2, hdr t ht, if_neg (fun h => hd ((hin t ht).mp h)),
      if_neg (fun h => hd ((hin t ht).mp h))] at this
    exact this

/-! ## A water heater with a first-hour rating

A tank of 4 litres with a 4 kW element: a draw of one minute empties it, and it is hot again after three
minutes. As in `DayExample`, the history is followed by a small automaton. -/

/-- The water heater. -/
def hourSim : Sim 1 1 :=
  { daySim with
    tank := { daySim.tank with volume_L := 4, nodeVolume_L := 2, nodeCp := cpWater * rhoWater * 2 }
    cfg := { daySim.cfg with src := fun i => { daySim.cfg.src i with kind := .resistance 4 } } }

/-- The water heater at temperature `T`, heating or not. -/
def hourState (T : ℚ) (f : Bool) : Sim 1 1 :=
  { hourSim with
    tank := { hourSim.tank with nodeTs := fun _ => T }
    inletT := testConditionsUEF.inletT
    haveInletT := true
    st := fun _ => ⟨f, false, 0, 0, 0⟩
    isHeating := f }

theorem hourSim_usable : Usable hourSim := by
  refine ⟨⟨⟨?_, ?_, ?_⟩, ?_, ?_, ?_⟩, ?_⟩ <;> decide +kernel

theorem hourState_usable (T : ℚ) (f : Bool) : Usable (hourState T f) :=
  ⟨hourSim_usable.1.of_cfg rfl, hourSim_usable.2⟩

/-- Full; emptied and heated for one minute, or two. -/
inductive HourStage
  | full | one | two
  deriving DecidableEq

/-- Temperature. -/
def HourStage.T : HourStage → ℚ
  | .full => 155 / 3
  | .one => 10806830 / 374319
  | .two => 16206830 / 374319

/-- Whether the element is on. -/
def HourStage.on : HourStage → Bool
  | .full => false
  | _ => true

/-- The next state after a minute with or without a draw. -/
def HourStage.next : HourStage → Bool → Option HourStage
  | .full, true => some .one
  | .full, false => some .full
  | .one, true => some .one
  | .one, false => some .two
  | .two, false => some .full
  | .two, true => none

/-- The same state up to outputs and the inlet temperature. -/
def HourLike (s : Sim 1 1) (g : HourStage) : Prop :=
  (s.setInletT testConditionsUEF.inletT).resetOutputs = hourState g.T g.on

/-- What is to be computed of a minute. -/
def HourLeads (dr : DR) (v : ℚ) (g g' : HourStage) : Prop :=
  ∃ s', (hourState g.T g.on).testStep sampleLibm 5 testConditionsUEF dr v = .ok s' ∧
    s'.tank.nodeTs 0 = g'.T ∧ s'.tank.nodeTs 1 = g'.T ∧ s'.isHeating = g'.on ∧ (s'.st 0).isOn = g'.on ∧
    (s'.st 0).lockedOut = false ∧ s'.soc = 0 ∧ s'.locationT = -500 ∧ s'.timerTOT = 0 ∧
    s'.tank.outletT = if v = 0 then 0 else g.T

instance (dr : DR) (v : ℚ) (g g' : HourStage) : Decidable (HourLeads dr v g g') := by
  unfold HourLeads; infer_instance

theorem hour_leads (g g' : HourStage) (d : Bool) (dr : DR) (hdr : dr = Sim.drAllow ∨ dr = Sim.drLockCompressor)
    (h : g.next d = some g') : HourLeads dr (if d then 4 else 0) g g' := by
  rcases hdr with rfl | rfl <;> cases g <;> cases d <;>
    simp only [HourStage.next, Option.some.injEq, reduceCtorEq] at h <;> subst h <;> decide +kernel

theorem HourLike.next {s : Sim 1 1} {g g' : HourStage} {d : Bool} {dr : DR} (h : HourLike s g)
    (hdr : dr = Sim.drAllow ∨ dr = Sim.drLockCompressor) (hl : g.next d = some g') :
    ∃ s', s.testStep sampleLibm 5 testConditionsUEF dr (if d then 4 else 0) = .ok s' ∧ HourLike s' g' ∧
      s'.tank.outletT = if d then g.T else 0 := by
  obtain ⟨s', e, h1, h2, h3, h4, h5, h6, h7, h8, h9⟩ := hour_leads g g' d dr hdr hl
  refine ⟨s', ?_, ?_, ?_⟩
  · rw [← e]
    unfold Sim.testStep
    rw [runOneStep_reset, h]
    rfl
  · obtain ⟨g1, g2, g3, g4, g5, g6⟩ := testMinute_same (hourState_usable g.T g.on)
      (by split_ifs <;> norm_num) (testStep_iff.mp e)
    have e1 : s'.tank.nodeTs = fun _ => g'.T := by
      funext i
      match i with
      | 0 => exact h1
      | 1 => exact h2
    have e2 : (fun i => ({ s'.st i with runtime_min := 0, energyInput_kWh := 0, energyOutput_kWh := 0 } :
        SourceState)) = fun _ => ⟨g'.on, false, 0, 0, 0⟩ := by
      funext i
      obtain rfl : i = 0 := Subsingleton.elim _ _
      dsimp only
      rw [h4, h5]
    unfold HourLike Sim.setInletT Sim.resetOutputs
    simp only [e2, g2, g3, g6, h3, h6, h7, h8]
    unfold hourState
    simp only
    congr 1
    congr 1
    · rw [g1, e1]
      rfl
  · rw [h9]
    cases d <;> simp

theorem HourLike.isHeating {s : Sim 1 1} {g : HourStage} (h : HourLike s g) : s.isHeating = g.on :=
  congrArg Sim.isHeating h

theorem HourLike.volume {s : Sim 1 1} {g : HourStage} (h : HourLike s g) : s.tank.volume_L = 4 :=
  congrArg (fun x : Sim 1 1 => x.tank.volume_L) h

theorem HourLike.averageT {s : Sim 1 1} {g : HourStage} (h : HourLike s g) : s.averageT = g.T := by
  have e : s.tank.nodeTs = fun _ => g.T := congrArg (fun x : Sim 1 1 => x.tank.nodeTs) h
  unfold Sim.averageT
  rw [e, Fin.sum_univ_two]
  ring

theorem HourLike.limitDraw {s : Sim 1 1} {g : HourStage} (h : HourLike s g) (d : Bool) :
    s.limitDraw (galLitres (3 / 2)) d = if d then 4 else 0 := by
  unfold Sim.limitDraw
  rw [h.volume]
  revert d
  decide +kernel

/-- The rating as a run of the automaton. -/
def hourRun : ℕ → HourStage → Sim.RatingState → Option ℚ
  | 0, _, _ => none
  | limit + 1, g, r =>
    match g.next r.isDrawing with
    | none => none
    | some g' =>
      if r.dr = Sim.drAllow ∨ r.dr = Sim.drLockCompressor then
        match r.next (if r.isDrawing then 4 else 0) (if r.isDrawing then g.T else 0) g'.T g'.on with
        | .error _ => none
        | .ok (.inl R) => some R
        | .ok (.inr q) => hourRun limit g' (q.counted (if r.isDrawing then 4 else 0))
      else none

theorem hour_returns {R : ℚ} : ∀ (limit : ℕ) (s : Sim 1 1) (g : HourStage) (r : Sim.RatingState), HourLike s g →
    hourRun limit g r = some R →
    ∃ s', Sim.ratingLoop sampleLibm 5 testConditionsUEF (galLitres (3 / 2)) limit s r = .ok (s', R) := by
  intro limit
  induction limit with
  | zero => intro s g r _ h; cases h
  | succ limit ih =>
    intro s g r hs h
    rw [hourRun] at h
    cases hg : g.next r.isDrawing with
    | none => rw [hg] at h; cases h
    | some g' =>
      rw [hg] at h
      simp only at h
      by_cases hdr : r.dr = Sim.drAllow ∨ r.dr = Sim.drLockCompressor
      swap
      · rw [if_neg hdr] at h; cases h
      rw [if_pos hdr] at h
      obtain ⟨s1, h1, l1, o1⟩ := hs.next hdr hg
      rw [Sim.ratingLoop, hs.limitDraw, h1]
      simp only [bind, Except.bind]
      rw [o1, l1.averageT, l1.isHeating]
      cases hn : r.next (if r.isDrawing then 4 else 0) (if r.isDrawing then g.T else 0) g'.T g'.on with
      | error e => rw [hn] at h; cases h
      | ok x =>
        rw [hn] at h
        cases x with
        | inl R' => cases h; exact ⟨s1, rfl⟩
        | inr q => exact ih s1 g' _ l1 h

/-- The first-hour rating of this water heater: 16 draws of two minutes, of which the first minute is
counted, and the last draw with the factor one, because all draws are alike. -/
theorem hourSim_returns : ∃ s', hourSim.findFirstHourRating sampleLibm 5 100 = .ok (s', 64, .verySmall) := by
  have ea : hourSim.applyTestSetpoint = .ok hourSim := by
    unfold Sim.applyTestSetpoint
    rw [if_pos (by decide +kernel)]
    unfold Sim.setSetpoint
    rw [if_pos (by decide +kernel)]
    rfl
  have hl : HourLike hourSim .full := by
    unfold HourLike Sim.setInletT Sim.resetOutputs hourState
    have e2 : hourSim.tank.nodeTs = fun _ => HourStage.full.T := by decide +kernel
    congr 1
    congr 1
    dsimp only
    rw [e2]
    rfl
  have hflow : hourSim.testFlow = galLitres (3 / 2) := by
    unfold Sim.testFlow
    rw [if_pos (by decide +kernel)]
    rfl
  obtain ⟨s1, a1, l1, -⟩ := hl.next (d := true) (Or.inl rfl) rfl
  obtain ⟨s2, a2, l2, -⟩ := l1.next (d := false) (Or.inl rfl) rfl
  obtain ⟨s3, a3, l3, -⟩ := l2.next (d := false) (Or.inl rfl) rfl
  obtain ⟨s4, a4, l4, -⟩ := l3.next (d := false) (Or.inl rfl) rfl
  have hprep : hourSim.prepareForTest sampleLibm 5 100 testConditionsUEF = .ok s4 := by
    unfold Sim.prepareForTest
    rw [hflow, Sim.prepLoop]
    rw [show hourSim.isHeating = false from rfl]
    simp only [Sim.prepNext, Bool.not_false, if_true, hl.limitDraw, Bool.false_eq_true, if_false]
    simp only [if_true, Bool.false_eq_true, if_false] at a1 a2 a3 a4
    rw [a1]
    change Sim.prepLoop sampleLibm 5 testConditionsUEF (galLitres (3 / 2)) 99 s1 .drawing true = _
    rw [Sim.prepLoop, l1.isHeating]
    simp only [HourStage.on, Sim.prepNext, if_true, l1.limitDraw, Bool.false_eq_true, if_false]
    rw [a2]
    change Sim.prepLoop sampleLibm 5 testConditionsUEF (galLitres (3 / 2)) 98 s2 .recovering false = _
    rw [Sim.prepLoop, l2.isHeating]
    simp only [HourStage.on, Sim.prepNext, Bool.not_true, l2.limitDraw, Bool.false_eq_true, if_false]
    rw [a3]
    change Sim.prepLoop sampleLibm 5 testConditionsUEF (galLitres (3 / 2)) 97 s3 .recovering false = _
    rw [Sim.prepLoop, l3.isHeating]
    simp only [HourStage.on, Sim.prepNext, Bool.not_false, if_true, l3.limitDraw, Bool.false_eq_true, if_false]
    rw [a4]
    rfl
  obtain ⟨s', h⟩ := hour_returns (R := 64) 100 s4 .full
    { rating_L := 0, draw_L := 0, sumVolumeT := 0, sumVolume := 0, prevAverageOutletT := 0
      prevMinOutletT := 0, maxTankT := hourSim.averageT, maxOutletT := 0, isDrawing := true
      dr := Sim.drLockCompressor, firstDraw := true, phase := .drawing, elapsed_min := 0 } l4 (by decide +kernel)
  refine ⟨s', ?_⟩
  unfold Sim.findFirstHourRating
  rw [ea]
  simp only [bind, Except.bind]
  rw [hprep]
  simp only
  rw [hflow, h]
  simp only
  have : Designation.ofVolume 64 = .verySmall := by decide +kernel
  rw [this]
  rfl

/-- The hypotheses of `C74_first_hour_partial` are met, with several draws. -/
example : (∀ s1, hourSim.applyTestSetpoint = .ok s1 → Usable s1) ∧
    ∃ s', hourSim.findFirstHourRating sampleLibm 5 100 = .ok (s', 64, .verySmall) := by
  refine ⟨fun s1 h => ?_, hourSim_returns⟩
  unfold Sim.applyTestSetpoint at h
  rw [if_pos (by decide +kernel)] at h
  unfold Sim.setSetpoint at h
  rw [if_pos (by decide +kernel)] at h
  rw [← Except.ok.inj h]
  exact hourSim_usable

end HPWH
