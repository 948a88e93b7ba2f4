import Verif.Spec.Rating
import Verif.Props.Demand
import Verif.Props.Run
import Mathlib.Tactic.LinearCombination
import Mathlib.Algebra.BigOperators.Intervals

/-! # C50, C51: usage classes, draw patterns and the schedule of the 24-hour test -/

namespace HPWH

open Spec _root_.HPWH.Units

variable {n k : ℕ}

/-! ## C50 -/

/-- **C50.** The class of a first-hour rating: below 18 gallons, from 18 to below 51, from 51 to below
75, from 75 on. -/
theorem C50_designation (v : ℚ) :
    (Designation.ofVolume v = .verySmall ↔ v < galLitres 18) ∧
    (Designation.ofVolume v = .low ↔ galLitres 18 ≤ v ∧ v < galLitres 51) ∧
    (Designation.ofVolume v = .medium ↔ galLitres 51 ≤ v ∧ v < galLitres 75) ∧
    (Designation.ofVolume v = .high ↔ galLitres 75 ≤ v) := by
  have e : ∀ x, GAL_TO_L x = galLitres x := fun x => by unfold GAL_TO_L LPerGal galLitres; rfl
  have h1 : galLitres 18 < galLitres 51 := by norm_num [galLitres]
  have h2 : galLitres 51 < galLitres 75 := by norm_num [galLitres]
  unfold Designation.ofVolume
  rw [e, e, e]
  split_ifs with a b c
  · simp [a, not_le.mpr a, not_le.mpr (a.trans h1), not_le.mpr (a.trans (h1.trans h2))]
  · simp [a, b, not_lt.mp a, not_le.mpr b, not_le.mpr (b.trans h2)]
  · simp [a, b, c, not_lt.mp b, not_le.mpr c]
  · simp [a, b, c, not_lt.mp c]

/-- **C50.** A higher rating is never in a lower class. -/
theorem C50_monotone (v w : ℚ) (h : v ≤ w) :
    rank (Designation.ofVolume v) ≤ rank (Designation.ofVolume w) := by
  unfold Designation.ofVolume
  have h1 : GAL_TO_L 18 < GAL_TO_L 51 := by norm_num [GAL_TO_L, LPerGal]
  have h2 : GAL_TO_L 51 < GAL_TO_L 75 := by norm_num [GAL_TO_L, LPerGal]
  split_ifs <;> simp only [rank] <;> first | omega | (exfalso; linarith)

/-- **C50.** The first-hour rating reports the class of the volume it reports, whatever the system. -/
theorem C50_reported_class (m : Libm) (fuel limit : ℕ) (s s' : Sim n k) (v : ℚ) (d : Designation)
    (h : s.findFirstHourRating m fuel limit = .ok (s', v, d)) : d = Designation.ofVolume v := by
  unfold Sim.findFirstHourRating at h
  rw [bind_ok_iff] at h
  obtain ⟨s1, -, h⟩ := h
  rw [bind_ok_iff] at h
  obtain ⟨s2, -, h⟩ := h
  rw [bind_ok_iff] at h
  obtain ⟨r, -, h⟩ := h
  have h := Except.ok.inj h
  rw [Prod.mk.injEq, Prod.mk.injEq] at h
  rw [← h.2.2, ← h.2.1]

/-- **C50.** Each class's pattern: positive volumes and flows, the nominal daily volume, start times that
are whole minutes of the day in increasing order. -/
theorem C50_patterns (d : Designation) :
    Sensible (drawPatterns d) ∧ ((drawPatterns d).map Draw.volume_gal).sum = nominalGallons d ∧
    (drawPatterns d).Pairwise (fun a b => a.startTime_min < b.startTime_min) ∧
    ∀ x ∈ drawPatterns d, ∃ t : ℕ, t < 1440 ∧ x.startTime_min = t := by
  have h : ∀ d, (drawPatterns d).all (fun x => decide (x.startTime_min = (x.startTime_min.num.toNat : ℚ) ∧
      x.startTime_min.num.toNat < 1440)) = true := by
    intro d; cases d <;> decide +kernel
  refine ⟨by cases d <;> decide +kernel, by cases d <;> decide +kernel,
    by cases d <;> decide +kernel, fun x hx => ?_⟩
  have := List.all_eq_true.mp (h d) x hx
  rw [decide_eq_true_eq] at this
  exact ⟨_, this.2, this.1⟩

example : Designation.ofVolume (galLitres 60) = .medium ∧ Designation.ofVolume (galLitres 18) = .low ∧
    Designation.ofVolume (galLitres 75) = .high := by decide +kernel

/-! ## C51: the schedule -/

/-- The schedule after the first `t` minutes of the test. -/
def scheduleAfter (tank_L : ℚ) (pattern : List Draw) : ℕ → Sim.Schedule
  | 0 => Sim.Schedule.init pattern
  | t + 1 => (scheduleAfter tank_L pattern t).tick tank_L t

/-- Volume drawn in minute `t + i` if the schedule is `q` before minute `t`. -/
def volumeFrom (tank_L : ℚ) : (i t : ℕ) → Sim.Schedule → ℚ
  | 0, t, q => (q.tick tank_L t).step_L
  | i + 1, t, q => volumeFrom tank_L i (t + 1) (q.tick tank_L t)

theorem galLitres_pos {x : ℚ} (h : 0 < x) : 0 < galLitres x := by unfold galLitres; positivity

theorem GAL_TO_L_eq (x : ℚ) : GAL_TO_L x = galLitres x := rfl

theorem perMinute_pos {V : ℚ} (hV : 0 < V) {d : Draw} (h : 0 < d.flowRate_gal_per_min) :
    0 < perMinute V d := lt_min (galLitres_pos h) hV

theorem begins_ge (V : ℚ) : ∀ (ds : List Draw) (f : ℕ), ∀ x ∈ begins V f ds, f ≤ x.2 ∧ x.1 ∈ ds := by
  intro ds
  induction ds with
  | nil => intro f x hx; simp [begins] at hx
  | cons d ds ih =>
    intro f x hx
    simp only [begins, List.mem_cons] at hx
    rcases hx with rfl | hx
    · exact ⟨le_max_left _ _, List.mem_cons_self⟩
    · obtain ⟨h1, h2⟩ := ih _ x hx
      have := le_max_left f ⌈d.startTime_min⌉₊
      exact ⟨by omega, List.mem_cons_of_mem _ h2⟩

theorem drawnIn_zero_early {V : ℚ} {t : ℕ} {x : Draw × ℕ} (h : t < x.2) :
    drawnIn V t x = 0 := by
  have e1 : t + 1 - x.2 = 0 := by omega
  have e2 : t - x.2 = 0 := by omega
  simp [drawnIn, drawnBefore, e1, e2]

/-- Before its last minute a draw has not delivered its volume; from then on it has. -/
theorem minutes_le_iff {V : ℚ} (hV : 0 < V) {d : Draw} (h : 0 < d.flowRate_gal_per_min) (j : ℕ)
    (hj : 1 ≤ j) : minutes V d ≤ j ↔ galLitres d.volume_gal ≤ perMinute V d * j := by
  unfold minutes
  rw [max_le_iff, Nat.ceil_le, div_le_iff₀' (perMinute_pos hV h)]
  exact ⟨fun h => h.2, fun h => ⟨hj, h⟩⟩

theorem drawnIn_zero_late {V : ℚ} (hV : 0 < V) {t : ℕ} {x : Draw × ℕ}
    (hf : 0 < x.1.flowRate_gal_per_min) (h : x.2 + minutes V x.1 ≤ t) : drawnIn V t x = 0 := by
  have hm : 1 ≤ minutes V x.1 := le_max_left _ _
  have a := (minutes_le_iff (d := x.1) hV hf (t + 1 - x.2) (by omega)).mp (by omega)
  have b := (minutes_le_iff (d := x.1) hV hf (t - x.2) (by omega)).mp (by omega)
  simp [drawnIn, drawnBefore, min_eq_left a, min_eq_left b]

theorem total_zero_early {V : ℚ} {ds : List Draw} {f t : ℕ} (h : t < f) :
    ((begins V f ds).map (drawnIn V t)).sum = 0 := by
  apply List.sum_eq_zero
  intro y hy
  rw [List.mem_map] at hy
  obtain ⟨x, hx, rfl⟩ := hy
  obtain ⟨h1, -⟩ := begins_ge V ds f x hx
  exact drawnIn_zero_early (by omega)

theorem begins_later {V : ℚ} {d : Draw} {ds : List Draw} {t : ℕ} (h : (t : ℚ) < d.startTime_min) :
    begins V t (d :: ds) = begins V (t + 1) (d :: ds) := by
  have : t + 1 ≤ ⌈d.startTime_min⌉₊ := Nat.lt_ceil.mpr h
  simp only [begins]
  rw [max_eq_right (by omega), max_eq_right this]

/-- The schedule `t - b` minutes into a draw. -/
def within (V : ℚ) (d : Draw) (ds : List Draw) (b t : ℕ) : Sim.Schedule :=
  ⟨ds, perMinute V d, galLitres d.volume_gal - perMinute V d * ((t - b : ℕ) : ℚ), false, true⟩

theorem limit_end {ds : List Draw} {p r : ℚ} {b : Bool} (h : r ≤ p) :
    (⟨ds, p, r, b, true⟩ : Sim.Schedule).limit = ⟨ds, r, 0, b, false⟩ := by
  simp [Sim.Schedule.limit, h]

theorem limit_more {ds : List Draw} {p r : ℚ} {b : Bool} (h : p < r) :
    (⟨ds, p, r, b, true⟩ : Sim.Schedule).limit = ⟨ds, p, r - p, b, true⟩ := by
  simp [Sim.Schedule.limit, not_le.mpr h]

theorem within_limit {V : ℚ} (hV : 0 < V) (t b : ℕ) (d : Draw) (ds : List Draw)
    (hs : 0 < d.volume_gal ∧ 0 < d.flowRate_gal_per_min) (hb : b ≤ t) (hlt : t - b < minutes V d) :
    (minutes V d = t - b + 1 ∧
      (within V d ds b t).limit = ⟨ds, drawnIn V t (d, b), 0, false, false⟩) ∨
    (t + 1 - b < minutes V d ∧ (within V d ds b t).limit = within V d ds b (t + 1) ∧
      drawnIn V t (d, b) = perMinute V d) := by
  obtain ⟨hvol, hf⟩ := hs
  have hp := perMinute_pos hV hf
  have hc : ((t + 1 - b : ℕ) : ℚ) = ((t - b : ℕ) : ℚ) + 1 := by
    rw [show t + 1 - b = t - b + 1 by omega]; push_cast; ring
  have hle := minutes_le_iff hV hf (t + 1 - b) (by omega)
  have hbefore : perMinute V d * ((t - b : ℕ) : ℚ) ≤ galLitres d.volume_gal := by
    rcases Nat.eq_zero_or_pos (t - b) with h0 | h0
    · rw [h0]; simpa using (galLitres_pos hvol).le
    · have := (minutes_le_iff hV hf (t - b) h0).not.mp (by omega)
      linarith
  by_cases hend : perMinute V d ≥ galLitres d.volume_gal - perMinute V d * ((t - b : ℕ) : ℚ)
  · left
    have : minutes V d ≤ t + 1 - b := hle.mpr (by rw [hc]; linarith)
    refine ⟨by omega, ?_⟩
    rw [within, limit_end hend, drawnIn, drawnBefore, drawnBefore]
    simp only
    rw [min_eq_left (by rw [hc]; linarith), min_eq_right hbefore]
  · right
    push Not at hend
    have h2 := hle.not.mpr (by rw [hc]; linarith)
    refine ⟨by omega, ?_, ?_⟩
    · rw [within, limit_more hend, within, hc]
      congr 1
      ring
    · simp only [drawnIn, drawnBefore]
      rw [min_eq_right (by rw [hc]; linarith), min_eq_right hbefore, hc]
      ring

theorem within_tick (V : ℚ) (d : Draw) (ds : List Draw) (b t : ℕ) (u : ℚ) :
    (within V d ds b t).tick V u = (within V d ds b t).limit := by
  simp [Sim.Schedule.tick, Sim.Schedule.start, within]

theorem ready_tick_start {V : ℚ} {d : Draw} {ds : List Draw} {a b : ℚ} {t : ℕ}
    (h : (t : ℚ) ≥ d.startTime_min) :
    (⟨d :: ds, a, b, true, false⟩ : Sim.Schedule).tick V t = (within V d ds t t).limit := by
  simp only [Sim.Schedule.tick, Sim.Schedule.start, within, if_true, if_pos h]
  congr 2
  · rw [GAL_TO_L_eq, mul_one, perMinute]
    split_ifs with h'
    · rw [min_eq_right h'.le]
    · rw [min_eq_left (not_lt.mp h')]
  · rw [GAL_TO_L_eq]; simp

theorem ready_tick_wait {V : ℚ} {d : Draw} {ds : List Draw} {a b : ℚ} {t : ℕ}
    (h : (t : ℚ) < d.startTime_min) :
    (⟨d :: ds, a, b, true, false⟩ : Sim.Schedule).tick V t = ⟨d :: ds, 0, 0, true, false⟩ := by
  simp [Sim.Schedule.tick, Sim.Schedule.start, Sim.Schedule.limit, h.not_ge]

theorem ready_tick_nil {V a b u : ℚ} :
    (⟨[], a, b, true, false⟩ : Sim.Schedule).tick V u = ⟨[], 0, 0, true, false⟩ := by
  simp [Sim.Schedule.tick, Sim.Schedule.start, Sim.Schedule.limit]

theorem pause_tick {V a b u : ℚ} {ds : List Draw} :
    (⟨ds, a, b, false, false⟩ : Sim.Schedule).tick V u = ⟨ds, 0, 0, true, false⟩ := by
  simp [Sim.Schedule.tick, Sim.Schedule.start, Sim.Schedule.limit]

/-- The volumes from any point on: within a draw, in the minute after a draw and between draws. -/
theorem volumes_from {V : ℚ} (hV : 0 < V) (i : ℕ) :
    (∀ (t b : ℕ) (d : Draw) (ds : List Draw), Sensible (d :: ds) → b ≤ t → t - b < minutes V d →
      volumeFrom V i t (within V d ds b t) = drawnIn V (t + i) (d, b) +
        ((begins V (b + minutes V d + 1) ds).map (drawnIn V (t + i))).sum) ∧
    (∀ (t : ℕ) (ds : List Draw) (a b : ℚ), Sensible ds →
      volumeFrom V i t ⟨ds, a, b, false, false⟩ =
        ((begins V (t + 1) ds).map (drawnIn V (t + i))).sum) ∧
    (∀ (t : ℕ) (ds : List Draw) (a b : ℚ), Sensible ds →
      volumeFrom V i t ⟨ds, a, b, true, false⟩ =
        ((begins V t ds).map (drawnIn V (t + i))).sum) := by
  induction i with
  | zero =>
    have B : ∀ (t b : ℕ) (d : Draw) (ds : List Draw), Sensible (d :: ds) → b ≤ t →
        t - b < minutes V d → volumeFrom V 0 t (within V d ds b t) = drawnIn V (t + 0) (d, b) +
          ((begins V (b + minutes V d + 1) ds).map (drawnIn V (t + 0))).sum := by
      intro t b d ds hs hb hlt
      rw [total_zero_early (by omega), add_zero, volumeFrom, within_tick]
      rcases within_limit hV t b d ds (hs d List.mem_cons_self) hb hlt with ⟨-, e⟩ | ⟨-, e, e'⟩
      · rw [e]; rfl
      · rw [e]; exact e'.symm
    refine ⟨B, fun t ds a b hs => ?_, fun t ds a b hs => ?_⟩
    · rw [total_zero_early (by omega), volumeFrom, pause_tick]
    · match ds with
      | [] => rw [volumeFrom, ready_tick_nil]; simp [begins]
      | d :: ds =>
        by_cases ht : (t : ℚ) ≥ d.startTime_min
        · have := B t t d ds hs le_rfl (by simp [minutes])
          rw [volumeFrom, within_tick] at this
          rw [volumeFrom, ready_tick_start ht, this]
          simp only [begins, List.map_cons, List.sum_cons]
          rw [max_eq_left (Nat.ceil_le.mpr ht)]
        · push Not at ht
          rw [volumeFrom, ready_tick_wait ht, begins_later ht, total_zero_early (by omega)]
  | succ i ih =>
    obtain ⟨ihB, ihC, ihA⟩ := ih
    have B : ∀ (t b : ℕ) (d : Draw) (ds : List Draw), Sensible (d :: ds) → b ≤ t →
        t - b < minutes V d → volumeFrom V (i + 1) t (within V d ds b t) =
          drawnIn V (t + (i + 1)) (d, b) +
          ((begins V (b + minutes V d + 1) ds).map (drawnIn V (t + (i + 1)))).sum := by
      intro t b d ds hs hb hlt
      have h0 := hs d List.mem_cons_self
      have hs' : Sensible ds := fun x hx => hs x (List.mem_cons_of_mem _ hx)
      have e2 : t + (i + 1) = t + 1 + i := by omega
      rw [volumeFrom, within_tick, e2]
      rcases within_limit hV t b d ds h0 hb hlt with ⟨hm, e⟩ | ⟨hm, e, -⟩
      · rw [e, ihC _ _ _ _ hs', drawnIn_zero_late hV h0.2 (by simp only; omega), zero_add,
          show b + minutes V d + 1 = t + 1 + 1 by omega]
      · rw [e, ihB (t + 1) b d ds hs (by omega) hm]
    refine ⟨B, fun t ds a b hs => ?_, fun t ds a b hs => ?_⟩
    · rw [volumeFrom, pause_tick, ihA _ _ _ _ hs, show t + (i + 1) = t + 1 + i by omega]
    · have e2 : t + (i + 1) = t + 1 + i := by omega
      match ds with
      | [] => rw [volumeFrom, ready_tick_nil, ihA _ _ _ _ hs]; simp [begins]
      | d :: ds =>
        by_cases ht : (t : ℚ) ≥ d.startTime_min
        · have := B t t d ds hs le_rfl (by simp [minutes])
          rw [volumeFrom, within_tick] at this
          rw [volumeFrom, ready_tick_start ht, this]
          simp only [begins, List.map_cons, List.sum_cons]
          rw [max_eq_left (Nat.ceil_le.mpr ht)]
        · push Not at ht
          rw [volumeFrom, ready_tick_wait ht, ihA _ _ _ _ hs, begins_later ht, e2]

theorem volumeFrom_after (V : ℚ) (pattern : List Draw) : ∀ (i t : ℕ),
    volumeFrom V i t (scheduleAfter V pattern t) = (scheduleAfter V pattern (t + i + 1)).step_L := by
  intro i
  induction i with
  | zero => intro t; rfl
  | succ i ih =>
    intro t
    rw [volumeFrom]
    have := ih (t + 1)
    rw [show t + (i + 1) + 1 = t + 1 + i + 1 by omega, ← this]
    rfl

/-- **C51.** The schedule draws in every minute exactly what the pattern prescribes: each draw begins at
its start time, or one minute after the end of the draw before if that is later; it runs at its flow rate
(but never more than the tank holds in one minute) until its volume has been drawn. -/
theorem C51_schedule (tank_L : ℚ) (hV : 0 < tank_L) (pattern : List Draw) (hs : Sensible pattern)
    (t : ℕ) : (scheduleAfter tank_L pattern (t + 1)).step_L = prescribed tank_L pattern t := by
  have := (volumes_from hV t).2.2 0 pattern 0 0 hs
  rw [Nat.zero_add] at this
  rw [prescribed, ← this]
  have h := volumeFrom_after tank_L pattern t 0
  rw [Nat.zero_add] at h
  exact h.symm

/-! ### What is prescribed -/

theorem drawnBefore_mono {V : ℚ} (hV : 0 < V) {d : Draw} (hf : 0 < d.flowRate_gal_per_min) (b : ℕ)
    {t u : ℕ} (h : t ≤ u) : drawnBefore V d b t ≤ drawnBefore V d b u := by
  unfold drawnBefore
  apply min_le_min le_rfl
  apply mul_le_mul_of_nonneg_left _ (perMinute_pos hV hf).le
  exact_mod_cast Nat.sub_le_sub_right h b

theorem drawnIn_bounds {V : ℚ} (hV : 0 < V) {x : Draw × ℕ} (hf : 0 < x.1.flowRate_gal_per_min) (t : ℕ) :
    0 ≤ drawnIn V t x ∧ drawnIn V t x ≤ perMinute V x.1 := by
  have hp := perMinute_pos hV hf
  refine ⟨sub_nonneg.mpr (drawnBefore_mono hV hf _ (by omega)), ?_⟩
  unfold drawnIn drawnBefore
  have h1 : ((t + 1 - x.2 : ℕ) : ℚ) ≤ ((t - x.2 : ℕ) : ℚ) + 1 := by
    have : t + 1 - x.2 ≤ t - x.2 + 1 := by omega
    exact_mod_cast this
  have h2 : perMinute V x.1 * ((t + 1 - x.2 : ℕ) : ℚ) ≤
      perMinute V x.1 * ((t - x.2 : ℕ) : ℚ) + perMinute V x.1 := by nlinarith
  rcases le_total (galLitres x.1.volume_gal) (perMinute V x.1 * ((t - x.2 : ℕ) : ℚ)) with h | h
  · rw [min_eq_left h]
    have := min_le_left (galLitres x.1.volume_gal) (perMinute V x.1 * ((t + 1 - x.2 : ℕ) : ℚ))
    linarith
  · rw [min_eq_right h]
    have := min_le_right (galLitres x.1.volume_gal) (perMinute V x.1 * ((t + 1 - x.2 : ℕ) : ℚ))
    linarith

theorem one_at_a_time {V : ℚ} (hV : 0 < V) (t : ℕ) : ∀ (ds : List Draw) (f : ℕ), Sensible ds →
    ((begins V f ds).map (drawnIn V t)).sum = 0 ∨
    ∃ x ∈ begins V f ds, x.2 ≤ t ∧ t < x.2 + minutes V x.1 ∧
      ((begins V f ds).map (drawnIn V t)).sum = drawnIn V t x := by
  intro ds
  induction ds with
  | nil => intro f _; left; simp [begins]
  | cons d ds ih =>
    intro f hs
    have hs' : Sensible ds := fun x hx => hs x (List.mem_cons_of_mem _ hx)
    simp only [begins, List.map_cons, List.sum_cons]
    set b := max f ⌈d.startTime_min⌉₊
    rcases Nat.lt_or_ge t b with h | h
    · left
      rw [drawnIn_zero_early h, total_zero_early (by omega), add_zero]
    · rcases Nat.lt_or_ge t (b + minutes V d) with h' | h'
      · right
        exact ⟨(d, b), List.mem_cons_self, h, h', by rw [total_zero_early (by omega), add_zero]⟩
      · rw [drawnIn_zero_late hV (hs d List.mem_cons_self).2 h', zero_add]
        rcases ih (b + minutes V d + 1) hs' with e | ⟨x, hx, h1, h2, e⟩
        · exact .inl e
        · exact .inr ⟨x, List.mem_cons_of_mem _ hx, h1, h2, e⟩

/-- **C51.** In every minute either nothing is drawn, or water of exactly one draw that has begun: not
before its start time, no faster than its flow rate and no more than the tank holds. -/
theorem C51_one_draw_at_a_time (tank_L : ℚ) (hV : 0 < tank_L) (pattern : List Draw)
    (hs : Sensible pattern) (t : ℕ) :
    (scheduleAfter tank_L pattern (t + 1)).step_L = 0 ∨
    ∃ d ∈ pattern, d.startTime_min ≤ t ∧ 0 ≤ (scheduleAfter tank_L pattern (t + 1)).step_L ∧
      (scheduleAfter tank_L pattern (t + 1)).step_L ≤ galLitres d.flowRate_gal_per_min ∧
      (scheduleAfter tank_L pattern (t + 1)).step_L ≤ tank_L := by
  rw [C51_schedule tank_L hV pattern hs t]
  unfold prescribed
  have hstart : ∀ (ds : List Draw) (f : ℕ), ∀ x ∈ begins tank_L f ds,
      x.1.startTime_min ≤ x.2 := by
    intro ds
    induction ds with
    | nil => intro f x hx; simp [begins] at hx
    | cons d ds ih =>
      intro f x hx
      simp only [begins, List.mem_cons] at hx
      rcases hx with rfl | hx
      · simp only
        exact (Nat.le_ceil _).trans (by exact_mod_cast le_max_right _ _)
      · exact ih _ x hx
  rcases one_at_a_time hV t pattern 0 hs with e | ⟨x, hx, h1, -, e⟩
  · exact .inl e
  · right
    have hm := (begins_ge tank_L pattern 0 x hx).2
    obtain ⟨b1, b2⟩ := drawnIn_bounds hV (hs _ hm).2 t
    refine ⟨x.1, hm, (hstart _ _ x hx).trans (by exact_mod_cast h1), ?_⟩
    rw [e]
    exact ⟨b1, b2.trans (min_le_left _ _), b2.trans (min_le_right _ _)⟩

theorem sum_drawnIn (V : ℚ) (l : List (Draw × ℕ)) (T : ℕ) :
    ∑ t ∈ Finset.range T, (l.map (drawnIn V t)).sum =
      (l.map fun x => drawnBefore V x.1 x.2 T - drawnBefore V x.1 x.2 0).sum := by
  induction T with
  | zero => simp
  | succ T ih =>
    rw [Finset.sum_range_succ, ih, ← List.sum_map_add]
    congr 1
    apply List.map_congr_left
    intro x _
    unfold drawnIn
    ring

/-- **C51.** If every draw has ended by minute `T`, then exactly the pattern's volume has been drawn. -/
theorem C51_total (tank_L : ℚ) (hV : 0 < tank_L) (pattern : List Draw) (hs : Sensible pattern) (T : ℕ)
    (hT : ∀ x ∈ begins tank_L 0 pattern, x.2 + minutes tank_L x.1 ≤ T) :
    ∑ t ∈ Finset.range T, (scheduleAfter tank_L pattern (t + 1)).step_L =
      (pattern.map fun d => galLitres d.volume_gal).sum := by
  rw [Finset.sum_congr rfl fun t _ => C51_schedule tank_L hV pattern hs t]
  unfold prescribed
  rw [sum_drawnIn]
  have hb : (begins tank_L 0 pattern).map Prod.fst = pattern := by
    generalize (0 : ℕ) = f
    clear hT hs
    induction pattern generalizing f with
    | nil => rfl
    | cons d ds ih => simp only [begins, List.map_cons, ih]
  conv_rhs => rw [← hb, List.map_map]
  congr 1
  apply List.map_congr_left
  intro x hx
  have hm := hs _ (begins_ge tank_L pattern 0 x hx).2
  have h1 : 1 ≤ minutes tank_L x.1 := le_max_left _ _
  have := hT x hx
  have := (minutes_le_iff hV hm.2 (T - x.2) (by omega)).mp (by omega)
  simp only [drawnBefore, Function.comp_apply]
  rw [min_eq_left this]
  simp [(galLitres_pos hm.1).le]

/-- A pattern whose draws never have to wait: each begins at a whole minute at least one minute after the
end of the one before. -/
def Unhurried (tank_L : ℚ) : (free : ℕ) → List Draw → Prop
  | _, [] => True
  | free, d :: ds => free ≤ ⌈d.startTime_min⌉₊ ∧ d.startTime_min = ⌈d.startTime_min⌉₊ ∧
      Unhurried tank_L (⌈d.startTime_min⌉₊ + minutes tank_L d + 1) ds

/-- **C51.** The draws of such a pattern begin exactly at their start times. -/
theorem C51_on_time (tank_L : ℚ) : ∀ (pattern : List Draw) (free : ℕ), Unhurried tank_L free pattern →
    ∀ x ∈ begins tank_L free pattern, (x.2 : ℚ) = x.1.startTime_min := by
  intro ds
  induction ds with
  | nil => intro f _ x hx; simp [begins] at hx
  | cons d ds ih =>
    intro f h x hx
    obtain ⟨h1, h2, h3⟩ := h
    simp only [begins, List.mem_cons, max_eq_right h1] at hx
    rcases hx with rfl | hx
    · exact h2.symm
    · exact ih _ h3 x hx

theorem same_plan {V W : ℚ} : ∀ (ds : List Draw) (f : ℕ), (∀ d ∈ ds, perMinute V d = perMinute W d) →
    begins V f ds = begins W f ds ∧ (Unhurried W f ds → Unhurried V f ds) := by
  intro ds
  induction ds with
  | nil => intro f _; exact ⟨rfl, fun _ => trivial⟩
  | cons d ds ih =>
    intro f h
    have hm : minutes V d = minutes W d := by
      unfold minutes; rw [h d List.mem_cons_self]
    have h' := fun x hx => h x (List.mem_cons_of_mem _ hx)
    refine ⟨?_, fun ⟨h1, h2, h3⟩ => ⟨h1, h2, ?_⟩⟩
    · simp only [begins, hm, (ih _ h').1]
    · rw [hm]; exact (ih _ h').2 h3

instance (V : ℚ) : ∀ (f : ℕ) (ds : List Draw), Decidable (Unhurried V f ds)
  | _, [] => isTrue trivial
  | f, d :: ds => by
    unfold Unhurried
    have := instDecidableUnhurried V (⌈d.startTime_min⌉₊ + minutes V d + 1) ds
    infer_instance

/-- **C51.** In any tank of at least 3 gallons every draw of the four standard patterns begins exactly at
its start time, and the day's 1441 minutes draw exactly the nominal volume. -/
theorem C51_standard_patterns (tank_L : ℚ) (hV : galLitres 3 ≤ tank_L) (d : Designation) :
    (∀ x ∈ begins tank_L 0 (drawPatterns d), (x.2 : ℚ) = x.1.startTime_min) ∧
    ∑ t ∈ Finset.range 1441, (scheduleAfter tank_L (drawPatterns d) (t + 1)).step_L =
      galLitres (nominalGallons d) := by
  have hpos : 0 < tank_L := lt_of_lt_of_le (by norm_num [galLitres]) hV
  have hflow : ∀ d, ∀ x ∈ drawPatterns d, galLitres x.flowRate_gal_per_min ≤ galLitres 3 := by
    intro d; cases d <;> decide +kernel
  have hp : ∀ x ∈ drawPatterns d, perMinute tank_L x = perMinute (galLitres 3) x := fun x hx => by
    unfold perMinute
    rw [min_eq_left (hflow d x hx), min_eq_left ((hflow d x hx).trans hV)]
  obtain ⟨e, hu⟩ := same_plan (drawPatterns d) 0 hp
  have hu0 : Unhurried (galLitres 3) 0 (drawPatterns d) := by cases d <;> decide +kernel
  refine ⟨C51_on_time tank_L _ 0 (hu hu0), ?_⟩
  rw [C51_total tank_L hpos _ (C50_patterns d).1 1441]
  · have := (C50_patterns d).2.1
    rw [← this]
    unfold galLitres
    rw [List.sum_map_mul_right]
  · have h : ∀ d, ∀ x ∈ begins (galLitres 3) 0 (drawPatterns d), x.2 + minutes (galLitres 3) x.1 ≤ 1441 := by
      intro d; cases d <;> decide +kernel
    intro x hx
    have hm : minutes tank_L x.1 = minutes (galLitres 3) x.1 := by
      unfold minutes
      rw [hp x.1 (begins_ge tank_L _ 0 x hx).2]
    rw [hm]
    exact h d x (e ▸ hx)

/-- A small tank draws more slowly: 27 gallons at 3 gallons a minute from a tank of one gallon. -/
example : prescribed (galLitres 1) (drawPatterns .high) 0 = galLitres 1 ∧
    prescribed (galLitres 1) (drawPatterns .high) 26 = galLitres 1 ∧
    prescribed (galLitres 1) (drawPatterns .high) 27 = 0 := by decide +kernel

end HPWH
