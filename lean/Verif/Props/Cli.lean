import Verif.Spec.Cli
import Verif.Props.Report
import Verif.Props.Run
import Verif.Lemmas.StepFrame
import Mathlib.Tactic.Linarith

/-! # The command `run` -/

namespace HPWH

open Spec Sim _root_.HPWH.Units

variable {n k : ℕ}

/-! ## C78 -/

theorem fillFrom_length (x : ℚ) (c j : ℕ) (a : List ℚ) : (fillFrom x j c a).length = a.length := by
  induction c generalizing j a with
  | zero => rfl
  | succ c ih => unfold fillFrom; rw [ih, List.length_set]

theorem fillFrom_get (x : ℚ) (c j : ℕ) (a : List ℚ) (t : ℕ) (ht : t < a.length) :
    (fillFrom x j c a)[t]? = if j ≤ t ∧ t < j + c then some x else a[t]? := by
  induction c generalizing j a with
  | zero => rw [if_neg (by omega)]; rfl
  | succ c ih =>
    unfold fillFrom
    rw [ih (j + 1) (a.set j x) (by simpa using ht), List.getElem?_set]
    by_cases h : j = t
    · subst h
      rw [if_neg (by omega), if_pos rfl, if_pos ht, if_pos (by omega)]
    · rw [if_neg h]
      congr 1
      exact propext (by omega)

theorem scheduled_cons (hourly : Bool) (v : ℚ) (e : ℤ × ℚ) (es : List (ℤ × ℚ)) (t : ℕ) :
    scheduled hourly v (e :: es) t = scheduled hourly (if Concerns hourly t e then e.2 else v) es t := by
  unfold scheduled
  rw [List.filter_cons]
  by_cases h : Concerns hourly t e
  · simp only [h, decide_true, if_true]
    cases hl : (es.filter fun e => Concerns hourly t e) with
    | nil => simp
    | cons b l =>
      rw [List.getLast?_cons_cons]
      cases hg : (b :: l).getLast? with
      | none => simp at hg
      | some y => rfl
  · simp [h]

theorem writeEntries_within (hourly : Bool) (es : List (ℤ × ℚ)) (a : List ℚ) (v : ℕ → ℚ)
    (hv : ∀ t < a.length, a[t]? = some (v t)) (h : ∀ e ∈ es, WithinTest hourly a.length e) :
    writeEntries hourly es a = .ok ((List.range a.length).map fun t => scheduled hourly (v t) es t, 0) := by
  induction es generalizing a v with
  | nil =>
    unfold writeEntries
    congr 2
    apply List.ext_getElem?
    intro t
    by_cases ht : t < a.length
    · rw [hv t ht]; simp [ht, scheduled]
    · rw [List.getElem?_eq_none (by omega), List.getElem?_eq_none (by simp; omega)]
  | cons e es ih =>
    obtain ⟨i, x⟩ := e
    have h0 := h (i, x) (by simp)
    have key : ∀ b : List ℚ, b.length = a.length →
        (∀ t < a.length, b[t]? = some (if Concerns hourly t (i, x) then x else v t)) →
        writeEntries hourly es b =
          .ok ((List.range a.length).map fun t => scheduled hourly (v t) ((i, x) :: es) t, 0) := by
      intro b hb hv'
      rw [ih b (fun t => if Concerns hourly t (i, x) then x else v t) (fun t ht => hv' t (by omega))
        (fun e he => by rw [hb]; exact h e (by simp [he])), hb]
      congr 3
      funext t
      rw [scheduled_cons]
    unfold writeEntries
    cases hourly with
    | true =>
      simp only [WithinTest, if_true] at h0
      rw [if_neg (by omega), if_pos rfl, if_pos ⟨by omega, h0.2⟩]
      refine key _ (fillFrom_length _ _ _ _) fun t ht => ?_
      rw [fillFrom_get _ _ _ _ _ ht, hv t ht]
      simp only [Concerns, if_true]
      have : ((i * 60).toNat ≤ t ∧ t < (i * 60).toNat + 60) ↔ i = ((t / 60 : ℕ) : ℤ) := by omega
      by_cases hc : i = ((t / 60 : ℕ) : ℤ)
      · rw [if_pos (this.mpr hc), if_pos hc]
      · rw [if_neg (fun hh => hc (this.mp hh)), if_neg hc]
    | false =>
      simp only [WithinTest, Bool.false_eq_true, if_false] at h0
      simp only [Bool.false_eq_true, if_false]
      rw [if_neg (by omega), if_pos h0.1]
      refine key _ (List.length_set) fun t ht => ?_
      rw [List.getElem?_set, hv t ht]
      simp only [Concerns, Bool.false_eq_true, if_false]
      by_cases hc : i = (t : ℤ)
      · rw [if_pos (by omega), if_pos (by omega), if_pos hc]
      · rw [if_neg (by omega), if_neg hc]

/-- The first exception outside the test decides. -/
theorem writeEntries_outside (hourly : Bool) (pre post : List (ℤ × ℚ)) (e : ℤ × ℚ) (a : List ℚ)
    (hp : ∀ e ∈ pre, WithinTest hourly a.length e) (he : ¬WithinTest hourly a.length e) :
    if e.1 ≥ a.length then ∃ b, writeEntries hourly (pre ++ e :: post) a = .ok (b, 1)
    else writeEntries hourly (pre ++ e :: post) a = .error .ub := by
  induction pre generalizing a with
  | nil =>
    obtain ⟨i, x⟩ := e
    simp only [List.nil_append]
    by_cases hi : i ≥ a.length
    · rw [if_pos hi]; unfold writeEntries; rw [if_pos hi]; exact ⟨a, rfl⟩
    · rw [if_neg hi]
      unfold writeEntries
      rw [if_neg hi]
      cases hourly with
      | true =>
        simp only [WithinTest, if_true] at he
        rw [if_pos rfl, if_neg (by omega)]
      | false =>
        simp only [WithinTest, Bool.false_eq_true, if_false] at he
        simp only [Bool.false_eq_true, if_false]
        rw [if_neg (by omega)]
  | cons d pre ih =>
    obtain ⟨i, x⟩ := d
    have h0 := hp (i, x) (by simp)
    have key : ∀ b : List ℚ, b.length = a.length →
        if e.1 ≥ a.length then ∃ c, writeEntries hourly (pre ++ e :: post) b = .ok (c, 1)
        else writeEntries hourly (pre ++ e :: post) b = .error .ub := by
      intro b hb
      have := ih b (fun e he => by rw [hb]; exact hp e (by simp [he])) (by rw [hb]; exact he)
      rwa [hb] at this
    rw [List.cons_append]
    unfold writeEntries
    cases hourly with
    | true =>
      simp only [WithinTest, if_true] at h0
      have e1 : ¬(i ≥ (a.length : ℤ)) := by omega
      have e2 : 0 ≤ i * 60 ∧ (i + 1) * 60 ≤ (a.length : ℤ) := ⟨by omega, h0.2⟩
      simp only [e1, e2, if_false, if_true, and_self]
      exact key _ (fillFrom_length _ _ _ _)
    | false =>
      simp only [WithinTest, Bool.false_eq_true, if_false] at h0
      have e1 : ¬(i ≥ (a.length : ℤ)) := by omega
      simp only [e1, h0.1, Bool.false_eq_true, if_false, if_true]
      exact key _ List.length_set

theorem first_outside (hourly : Bool) (N : ℕ) (es : List (ℤ × ℚ)) (h : ¬∀ e ∈ es, WithinTest hourly N e) :
    ∃ pre e post, es = pre ++ e :: post ∧ (∀ d ∈ pre, WithinTest hourly N d) ∧ ¬WithinTest hourly N e := by
  induction es with
  | nil => exact absurd (by simp) h
  | cons e es ih =>
    by_cases he : WithinTest hourly N e
    · obtain ⟨pre, d, post, rfl, h1, h2⟩ := ih (fun hh => h (by
        intro d hd
        rcases List.mem_cons.mp hd with rfl | hd
        · exact he
        · exact hh d hd))
      refine ⟨e :: pre, d, post, rfl, ?_, h2⟩
      intro c hc
      rcases List.mem_cons.mp hc with rfl | hc
      · exact he
      · exact h1 c hc
    · exact ⟨[], e, es, rfl, by simp, he⟩

/-- The marker of hourly exceptions. -/
theorem isHourly_iff (marker : String) :
    isHourly marker = true ↔ ∃ l, marker.toList = 'h' :: l ∨ marker.toList = 'H' :: l := by
  unfold isHourly
  cases marker.toList with
  | nil => simp
  | cons c l =>
    simp only [beq_iff_eq, List.cons.injEq]
    constructor
    · intro h
      refine ⟨l, ?_⟩
      simp only [and_true]
      unfold Char.toLower at h
      split at h
      · right
        have h' := congrArg Char.val h
        simp only at h'
        apply Char.ext
        have e1 : ('a'.val - 'A'.val) = 32 := by decide
        have e2 : 'h'.val = 104 := by decide
        have e3 : 'H'.val = 72 := by decide
        rw [e1, e2] at h'
        rw [e3]
        have h2 := congrArg (· - (32 : UInt32)) h'
        simpa using h2
      · exact .inl h
    · rintro ⟨l', ⟨rfl, -⟩ | ⟨rfl, -⟩⟩ <;> decide

/-- **C78.** A schedule is read exactly if it names its default value and its exceptions lie within the
test; it then has a value for every minute of the test: that of the last exception for the minute or its
hour, otherwise the default. -/
theorem C78_schedule (f : ScheduleFile) (N : ℕ) (l : List ℚ) :
    readSchedule (some f) N = .ok (l, 0) ↔ f.keyword = "default" ∧
      (f.marker ≠ "" → ∀ e ∈ f.entries, WithinTest (isHourly f.marker) N e) ∧
      l = (List.range N).map fun t =>
        if f.marker = "" then f.value else scheduled (isHourly f.marker) f.value f.entries t := by
  unfold readSchedule
  by_cases hk : f.keyword = "default"
  · simp only [hk, ne_eq, not_true_eq_false, if_false, true_and]
    rw [if_neg (by omega)]
    by_cases hm : f.marker = ""
    · rw [if_pos hm]
      simp only [hm, not_true_eq_false, false_imp_iff, if_true, true_and, Except.ok.injEq, Prod.mk.injEq,
        and_true, Int.toNat_natCast]
      rw [eq_comm]
      have : List.replicate N f.value = (List.range N).map fun _ => f.value := by
        simp
      rw [this]
    · simp only [hm, if_false, not_false_eq_true, true_imp_iff, Int.toNat_natCast]
      by_cases hw : ∀ e ∈ f.entries, WithinTest (isHourly f.marker) N e
      · have := writeEntries_within (isHourly f.marker) f.entries (List.replicate N f.value) (fun _ => f.value)
          (fun t ht => by simp at ht; simp [ht]) (by simpa using hw)
        rw [this]
        simp only [List.length_replicate, Except.ok.injEq, Prod.mk.injEq, and_true]
        exact ⟨fun h => ⟨hw, h.symm⟩, fun h => h.2.symm⟩
      · obtain ⟨pre, e, post, he, h1, h2⟩ := first_outside _ _ _ hw
        have := writeEntries_outside (isHourly f.marker) pre post e (List.replicate N f.value)
          (by simpa using h1) (by simpa using h2)
        rw [← he] at this
        constructor
        · intro h
          exfalso
          split at this
          · obtain ⟨b, hb⟩ := this; rw [hb] at h; simp at h
          · rw [this] at h; cases h
        · rintro ⟨h, -⟩; exact absurd h hw
  · simp [hk]

/-- **C78, negative.** An hour that is not within the test is not noticed, as the number of the hour is
compared with the number of minutes: the code writes outside the schedule. The same happens with negative
numbers. Only numbers from the length of the test on are reported. -/
theorem C78_outside (f : ScheduleFile) (N : ℕ) (pre post : List (ℤ × ℚ)) (i : ℤ) (x : ℚ)
    (hk : f.keyword = "default") (hm : f.marker ≠ "") (he : f.entries = pre ++ (i, x) :: post)
    (hp : ∀ e ∈ pre, WithinTest (isHourly f.marker) N e) :
    (isHourly f.marker = true → i < N → N < (i + 1) * 60 → readSchedule (some f) N = .error .ub) ∧
    (i < 0 → readSchedule (some f) N = .error .ub) ∧
    (N ≤ i → ∃ l, readSchedule (some f) N = .ok (l, 1)) := by
  have hr : readSchedule (some f) N =
      writeEntries (isHourly f.marker) (pre ++ (i, x) :: post) (List.replicate N f.value) := by
    unfold readSchedule
    simp only [hk, ne_eq, not_true_eq_false, if_false]
    rw [if_neg (by omega), if_neg hm, he, Int.toNat_natCast]
  have key := writeEntries_outside (isHourly f.marker) pre post (i, x) (List.replicate N f.value)
    (by simpa using hp)
  simp only [List.length_replicate] at key
  rw [hr]
  refine ⟨fun h1 h2 h3 => ?_, fun h => ?_, fun h => ?_⟩
  · have := key (by rw [h1]; simp only [WithinTest, if_true]; omega)
    rwa [if_neg (by omega)] at this
  · have := key (by simp only [WithinTest]; omega)
    rwa [if_neg (by omega)] at this
  · have := key (by
      simp only [WithinTest]
      split <;> omega)
    rwa [if_pos (by omega)] at this

/-- A schedule for two hours with two exceptions for the second hour. -/
def sampleSchedule : ScheduleFile := ⟨"default", 1, "hour", [(1, 5), (1, 7)]⟩

example : (∃ l, readSchedule (some sampleSchedule) 120 = .ok l ∧ l.2 = 0 ∧ l.1[59]? = some 1 ∧
      l.1[60]? = some 7) ∧
    (∀ e ∈ sampleSchedule.entries, WithinTest (isHourly sampleSchedule.marker) 120 e) ∧
    scheduled true 1 sampleSchedule.entries 119 = 7 := by
  refine ⟨by decide +kernel, ?_, by decide +kernel⟩
  have : isHourly sampleSchedule.marker = true := by decide
  rw [this]
  simp [sampleSchedule, WithinTest]

/-- In a test of one day the hour after the last is written outside the schedule. -/
example : readSchedule (some ⟨"default", 1, "hour", [(24, 5)]⟩) 1440 = .error .ub :=
  (C78_outside ⟨"default", 1, "hour", [(24, 5)]⟩ 1440 [] [] 24 5 rfl (by decide) rfl (by simp)).1 (by decide)
    (by decide) (by decide)

theorem writeEntries_length (hourly : Bool) (es : List (ℤ × ℚ)) (a b : List ℚ) (c : ℕ)
    (h : writeEntries hourly es a = .ok (b, c)) : b.length = a.length := by
  induction es generalizing a with
  | nil => cases h; rfl
  | cons e es ih =>
    obtain ⟨i, x⟩ := e
    unfold writeEntries at h
    split at h
    · cases h; rfl
    · split at h
      · split at h
        · rw [ih _ h, fillFrom_length]
        · cases h
      · split at h
        · rw [ih _ h, List.length_set]
        · cases h

theorem readSchedule_length (f : Option ScheduleFile) (N : ℕ) (l : List ℚ) (c : ℕ)
    (h : readSchedule f N = .ok (l, c)) : (l = [] ∧ c = 1) ∨ l.length = N := by
  unfold readSchedule at h
  split at h
  · cases h; exact .inl ⟨rfl, rfl⟩
  · split at h
    · cases h; exact .inl ⟨rfl, rfl⟩
    · split at h
      · cases h
      · split at h
        · cases h; right; simp
        · right; rw [writeEntries_length _ _ _ _ _ h]; simp

theorem requireSchedule_length {f : Option ScheduleFile} {N : ℕ} {l : List ℚ}
    (h : requireSchedule f N = .ok l) : l.length = N := by
  obtain ⟨⟨l', c⟩, h1, h2⟩ := (bind_ok_iff _ _ _).mp h
  simp only at h2
  split at h2
  · cases h2
  · rename_i hc
    cases h2
    rcases readSchedule_length _ _ _ _ h1 with ⟨-, h⟩ | h
    · simp [h] at hc
    · exact h

theorem optionalSchedule_length {f : Option ScheduleFile} {N : ℕ} {l : List ℚ}
    (h : optionalSchedule f N = .ok l) : l = [] ∨ l.length = N := by
  obtain ⟨⟨l', c⟩, h1, h2⟩ := (bind_ok_iff _ _ _).mp h
  cases h2
  rcases readSchedule_length _ _ _ _ h1 with ⟨h, -⟩ | h
  · exact .inl h
  · exact .inr h

/-- **C78.** The five schedules a test needs have a value for each of its minutes, or the test does not
begin; the other two have a value for each minute or none at all. -/
theorem C78_lengths (f : ScheduleFiles) (N : ℕ) (sch : Schedules) (h : readSchedules f N = .ok sch) :
    sch.inletT.length = N ∧ sch.draw.length = N ∧ sch.ambientT.length = N ∧ sch.evaporatorT.length = N ∧
    sch.dr.length = N ∧ (sch.setpoint = [] ∨ sch.setpoint.length = N) ∧
    (sch.soc = [] ∨ sch.soc.length = N) := by
  obtain ⟨a1, h1, h⟩ := (bind_ok_iff _ _ _).mp h
  obtain ⟨a2, h2, h⟩ := (bind_ok_iff _ _ _).mp h
  obtain ⟨a3, h3, h⟩ := (bind_ok_iff _ _ _).mp h
  obtain ⟨a4, h4, h⟩ := (bind_ok_iff _ _ _).mp h
  obtain ⟨a5, h5, h⟩ := (bind_ok_iff _ _ _).mp h
  obtain ⟨a6, h6, h⟩ := (bind_ok_iff _ _ _).mp h
  obtain ⟨a7, h7, h⟩ := (bind_ok_iff _ _ _).mp h
  cases h
  exact ⟨requireSchedule_length h1, requireSchedule_length h2, requireSchedule_length h3,
    requireSchedule_length h4, requireSchedule_length h5, optionalSchedule_length h6,
    optionalSchedule_length h7⟩

/-! ## C79 -/

/-- Heating leaves the control by state of charge alone. -/
theorem socInduction (m : Libm) (fuel : ℕ) (dr : DR) (amb : ℚ) (s0 : Sim n k) :
    HeatInduction m fuel dr amb s0.cfg (fun _ => True)
      (fun s => s.cfg = s0.cfg ∧ s.socControl = s0.socControl) (fun _ => True) where
  fixed _ inv := inv.1
  ctrl s s' hc inv := by
    refine ⟨by rw [hc.rest]; exact inv.1, ?_⟩
    rw [hc.plant]; exact inv.2
  heat s s' j minutes _ inv _ hdr h := by
    refine ⟨?_, fun _ => trivial⟩
    rcases addHeatParent_cases h with h | ⟨c, s2, -, -, -, -, h2, e⟩
    · obtain ⟨h1, h2⟩ := addHeat_spec h
      obtain ⟨f1, -⟩ := addHeatKind_frame h1
      rw [h2]
      exact ⟨inv.1, f1.2.2.2.2.trans inv.2⟩
    · obtain ⟨h1, h2⟩ := addHeat_spec h2
      obtain ⟨f1, -⟩ := addHeatKind_frame h1
      have g : s'.cfg = s.cfg ∧ s'.socControl = s2.socControl := by
        rcases e with ⟨hs, e⟩ | ⟨hs, e⟩ <;> rw [e] <;> exact ⟨by rw [h2], rfl⟩
      refine ⟨g.1.trans inv.1, g.2.trans ?_⟩
      rw [h2]
      exact f1.2.2.2.2.trans inv.2
  back _ _ _ _ _ _ := trivial

/-- A step leaves the settings and the kind of control alone. -/
theorem runOneStep_settings {m : Libm} {fuel : ℕ} {s s' : Sim n k} {u : Sim.StepInput}
    (hx : u.extraHeat_W = []) (h : Sim.runOneStep m fuel s u = .ok s') :
    s'.cfg = s.cfg ∧ s'.socControl = s.socControl := by
  obtain ⟨-, s0, s1, s2, hs, h1, h2, rfl⟩ := runOneStep_ok h
  obtain ⟨g1, g2, -⟩ := finish_facts s2 u.tankAmbient u.dr
  have e2 := (extraStep_frame h2).2.2.2.2.2.2.2 hx
  obtain ⟨a1, a2⟩ := (socInduction m fuel u.dr (s.sourceAirT u) s0).control ⟨rfl, rfl⟩ trivial h1
  constructor
  · rw [g2, e2, a1, hs.cfg]
  · rw [g1, e2]
    exact a2.trans hs.socControl

theorem runMinutes_ok {m : Libm} {fuel : ℕ} {a : RunArgs} {c : Control} {sch : Schedules} :
    ∀ (count i : ℕ) (s s' : Sim n k) (o o' : RunOutput k),
    runMinutes m fuel a c sch count i s o = .ok (none, s', o') →
    ∃ (S : ℕ → Sim n k) (U : ℕ → MinuteInput) (O : ℕ → RunOutput k),
      S 0 = s ∧ S count = s' ∧ O 0 = o ∧ O count = o' ∧
      ∀ j < count, runMinute m fuel a c sch (i + j) (S j) = .ok (U j, S (j + 1)) ∧
        minuteChecks (U j) (S j).tank.heatContent (S (j + 1)) = true ∧
        (O j).add a c (shownTarget c sch (i + j)) (i + j) (U j) (S (j + 1)) = .ok (O (j + 1)) := by
  intro count
  induction count with
  | zero =>
    intro i s s' o o' h
    cases h
    exact ⟨fun _ => s, fun _ => ⟨0, 0, 0, 0, 0, noSignal⟩, fun _ => o, rfl, rfl, rfl, rfl, by simp⟩
  | succ count ih =>
    intro i s s' o o' h
    unfold runMinutes at h
    obtain ⟨⟨u, s1⟩, h1, h⟩ := (bind_ok_iff _ _ _).mp h
    simp only at h
    by_cases hk : minuteChecks u s.tank.heatContent s1 = false
    · rw [if_pos hk] at h; cases h
    · rw [if_neg hk] at h
      obtain ⟨b, -, h⟩ := (bind_ok_iff _ _ _).mp h
      obtain ⟨o1, h2, h⟩ := (bind_ok_iff _ _ _).mp h
      obtain ⟨S, U, O, e1, e2, e3, e4, hj⟩ := ih (i + 1) s1 s' o1 o' h
      refine ⟨fun j => if j = 0 then s else S (j - 1), fun j => if j = 0 then u else U (j - 1),
        fun j => if j = 0 then o else O (j - 1), rfl, by simp [e2], rfl, by simp [e4], ?_⟩
      intro j hjc
      rcases Nat.eq_zero_or_pos j with rfl | hp
      · simp only [if_true, Nat.add_zero, zero_add, one_ne_zero, if_false, Nat.sub_self, e1, e3]
        exact ⟨h1, by simpa using hk, h2⟩
      · obtain ⟨j, rfl⟩ := Nat.exists_eq_succ_of_ne_zero (by omega : j ≠ 0)
        have := hj j (by omega)
        simp only [Nat.succ_ne_zero, if_false, Nat.succ_eq_add_one, Nat.add_sub_cancel]
        rw [show i + (j + 1) = i + 1 + j by omega]
        exact this

theorem scheduleAt_ok {l : List ℚ} {i : ℕ} {x : ℚ} : scheduleAt l i = .ok x ↔ l[i]? = some x := by
  unfold scheduleAt
  cases l[i]? <;> simp

theorem drMode_ok {x : ℚ} {r : ℤ × DR} (h : drMode x = .ok r) :
    |x - r.1| < 1 ∧ |(r.1 : ℚ)| ≤ |x| ∧
    r.1 = (if r.2.loc then 1 else 0) + (if r.2.lor then 2 else 0) + (if r.2.too then 4 else 0) +
      (if r.2.tot then 8 else 0) := by
  unfold drMode at h
  simp only at h
  set d : ℤ := if 0 ≤ x then ⌊x⌋ else ⌈x⌉ with hd
  split at h
  · rename_i hr
    cases h
    refine ⟨?_, ?_, ?_⟩
    · simp only
      rw [hd]
      split
      · rw [abs_of_nonneg (by have := Int.floor_le x; linarith)]
        have := Int.lt_floor_add_one x; linarith
      · rw [abs_of_nonpos (by have := Int.le_ceil x; linarith)]
        have := Int.ceil_lt_add_one x; linarith
    · simp only
      rw [hd]
      split
      · rename_i h0
        rw [abs_of_nonneg h0, abs_of_nonneg (by exact_mod_cast Int.floor_nonneg.mpr h0)]
        exact Int.floor_le x
      · rename_i h0
        push Not at h0
        have : ⌈x⌉ ≤ 0 := Int.ceil_le.mpr (by simpa using h0.le)
        rw [abs_of_neg h0, abs_of_nonpos (by exact_mod_cast this)]
        have := Int.le_ceil x; linarith
    · simp only [decide_eq_true_eq]
      have h1 := hr.1
      have h2 := hr.2
      generalize d = d at h1 h2
      split_ifs <;> omega
  · cases h

theorem runMinute_ok {m : Libm} {fuel : ℕ} {a : RunArgs} {c : Control} {sch : Schedules} {i : ℕ}
    {s s' : Sim n k} {u : MinuteInput} (h : runMinute m fuel a c sch i s = .ok (u, s')) :
    ∃ s1 s2 : Sim n k,
    (if sch.setpoint ≠ [] ∧ s.cfg.setpointFixed = false then
      ∃ x, sch.setpoint[i]? = some x ∧ s.newSetpointPossible x = true ∧ s1 = { s with setpoint := x }
      else s1 = s) ∧
    (if c.useSoC then ∃ x, sch.soc[i]? = some x ∧ s1.setTargetSoC x = .ok s2 else s2 = s1) ∧
    minuteInput a c sch i s2 = .ok u ∧
    runOneStep m fuel (s2.setInletT u.inletT) u.step = .ok s' := by
  obtain ⟨s2, h1, h⟩ := (bind_ok_iff _ _ _).mp h
  obtain ⟨u', h2, h⟩ := (bind_ok_iff _ _ _).mp h
  obtain ⟨s3, h3, h⟩ := (bind_ok_iff _ _ _).mp h
  cases h
  unfold minuteSettings at h1
  obtain ⟨s1, h0, h1⟩ := (bind_ok_iff _ _ _).mp h1
  refine ⟨s1, s2, ?_, ?_, h2, h3⟩
  · by_cases hc : sch.setpoint ≠ [] ∧ s.cfg.setpointFixed = false
    · rw [if_pos hc] at h0 ⊢
      obtain ⟨x, hx, h0⟩ := (bind_ok_iff _ _ _).mp h0
      unfold setSetpoint at h0
      split at h0
      · rename_i hp
        cases h0
        exact ⟨x, scheduleAt_ok.mp hx, hp, rfl⟩
      · cases h0
    · rw [if_neg hc] at h0 ⊢
      exact (Except.ok.inj h0).symm
  · cases hu : c.useSoC
    · rw [hu] at h1
      simp only [Bool.false_eq_true, if_false] at h1 ⊢
      exact (Except.ok.inj h1).symm
    · rw [hu] at h1
      simp only [if_true] at h1 ⊢
      obtain ⟨x, hx, h1⟩ := (bind_ok_iff _ _ _).mp h1
      exact ⟨x, scheduleAt_ok.mp hx, h1⟩

theorem minuteInput_ok {a : RunArgs} {c : Control} {sch : Schedules} {i : ℕ} {s : Sim n k} {u : MinuteInput}
    (h : minuteInput a c sch i s = .ok u) :
    sch.inletT[i]? = some u.inletT ∧ sch.evaporatorT[i]? = some u.evaporatorT ∧
    (if a.airTemp > 0 then u.airT = (a.airTemp - 32) * 5 / 9 else sch.ambientT[i]? = some u.airT) ∧
    (∃ x g, sch.draw[i]? = some x ∧ mixDown a c.minutes s u.inletT x = .ok g ∧
      u.draw_L = g * (378541 / 100000)) ∧
    ∃ x, sch.dr[i]? = some x ∧ drMode x = .ok (u.drCode, u.dr) := by
  unfold minuteInput at h
  obtain ⟨airT, h1, h⟩ := (bind_ok_iff _ _ _).mp h
  obtain ⟨code, h2, h⟩ := (bind_ok_iff _ _ _).mp h
  obtain ⟨d, h3, h⟩ := (bind_ok_iff _ _ _).mp h
  obtain ⟨inletT, h4, h⟩ := (bind_ok_iff _ _ _).mp h
  obtain ⟨draw, h5, h⟩ := (bind_ok_iff _ _ _).mp h
  obtain ⟨g, h6, h⟩ := (bind_ok_iff _ _ _).mp h
  obtain ⟨ev, h7, h⟩ := (bind_ok_iff _ _ _).mp h
  cases h
  refine ⟨scheduleAt_ok.mp h4, scheduleAt_ok.mp h7, ?_, ⟨draw, g, scheduleAt_ok.mp h5, h6, ?_⟩,
    code, scheduleAt_ok.mp h2, h3⟩
  · split at h1
    · rename_i ha
      rw [if_pos ha]
      simp only [Except.ok.injEq] at h1
      simp only [← h1, F_TO_C, FperC, offsetF]; ring
    · rename_i ha
      rw [if_neg ha]
      exact scheduleAt_ok.mp h1
  · simp only [GAL_TO_L, LPerGal]

theorem course_of_minutes {m : Libm} {fuel : ℕ} {a : RunArgs} {c : Control} {sch : Schedules} {N : ℕ}
    {S : ℕ → Sim n k} {U : ℕ → MinuteInput}
    (h : ∀ j < N, runMinute m fuel a c sch j (S j) = .ok (U j, S (j + 1))) :
    Course m fuel a c sch N S U := by
  refine ⟨fun i hi => ?_, fun i hi => ?_, fun i hi => ?_, fun i hi => ?_, fun i hi hmix => ?_, fun i hi => ?_⟩
  · obtain ⟨s1, s2, h1, h2, h3, h4⟩ := runMinute_ok (h i hi)
    exact ⟨s1, s2, h1, h2, h4⟩
  · obtain ⟨s1, s2, h1, h2, h3, h4⟩ := runMinute_ok (h i hi)
    exact (minuteInput_ok h3).1
  · obtain ⟨s1, s2, h1, h2, h3, h4⟩ := runMinute_ok (h i hi)
    exact (minuteInput_ok h3).2.1
  · obtain ⟨s1, s2, h1, h2, h3, h4⟩ := runMinute_ok (h i hi)
    exact (minuteInput_ok h3).2.2.1
  · obtain ⟨s1, s2, h1, h2, h3, h4⟩ := runMinute_ok (h i hi)
    obtain ⟨x, g, hx, hg, hd⟩ := (minuteInput_ok h3).2.2.2.1
    refine ⟨x, hx, ?_⟩
    unfold mixDown at hg
    rw [if_neg hmix] at hg
    cases hg
    exact hd
  · obtain ⟨s1, s2, h1, h2, h3, h4⟩ := runMinute_ok (h i hi)
    obtain ⟨x, hx, hd⟩ := (minuteInput_ok h3).2.2.2.2
    obtain ⟨d1, d2, d3⟩ := drMode_ok hd
    exact ⟨x, (U i).drCode, hx, d1, d2, rfl, d3⟩

theorem setTargetSoC_ok {s s' : Sim n k} {x : ℚ} (h : s.setTargetSoC x = .ok s') :
    s' = { s with cfg := { s.cfg with
      src := fun i => { s.cfg.src i with
        turnOn := (s.cfg.src i).turnOn.map fun l => { l with decisionPoint := x }
        shutOff := (s.cfg.src i).shutOff.map fun l =>
          if l.isEnteringWaterHighTempShutoff then l else { l with decisionPoint := x } } } } := by
  unfold setTargetSoC at h
  split at h
  · cases h
  · split at h
    · cases h
    · exact (Except.ok.inj h).symm

/-- What the heading depends on. -/
def Alike (s s' : Sim n k) : Prop :=
  s'.isCompressorExternalMultipass = s.isCompressorExternalMultipass ∧ s'.socControl = s.socControl

theorem alike_setTargetSoC {s s' : Sim n k} {x : ℚ} (h : s.setTargetSoC x = .ok s') : Alike s s' := by
  rw [setTargetSoC_ok h]
  refine ⟨?_, rfl⟩
  unfold isCompressorExternalMultipass compressor
  rfl

theorem alike_minute {m : Libm} {fuel : ℕ} {a : RunArgs} {c : Control} {sch : Schedules} {i : ℕ}
    {s s' : Sim n k} {u : MinuteInput} (h : runMinute m fuel a c sch i s = .ok (u, s')) : Alike s s' := by
  obtain ⟨s1, s2, h1, h2, h3, h4⟩ := runMinute_ok h
  obtain ⟨e1, e2⟩ := runOneStep_settings (u := u.step) rfl h4
  have a3 : Alike s2 s' := by
    refine ⟨?_, e2⟩
    unfold isCompressorExternalMultipass compressor
    rw [e1]; rfl
  have a1 : Alike s s1 := by
    split at h1
    · obtain ⟨x, -, -, rfl⟩ := h1; exact ⟨rfl, rfl⟩
    · rw [h1]; exact ⟨rfl, rfl⟩
  have a2 : Alike s1 s2 := by
    split at h2
    · obtain ⟨x, -, hx⟩ := h2; exact alike_setTargetSoC hx
    · rw [h2]; exact ⟨rfl, rfl⟩
  exact ⟨a3.1.trans (a2.1.trans a1.1), a3.2.trans (a2.2.trans a1.2)⟩

theorem alike_heading {s s' : Sim n k} (h : Alike s s') (ip : Bool) : s'.testHeading ip = s.testHeading ip := by
  unfold testHeading
  rw [h.1, h.2]

theorem runRecord_eq (a : RunArgs) (i : ℕ) (u : MinuteInput) (s : Sim n k) :
    runRecord a i u s = minuteRecord a i u s := by
  unfold runRecord minuteRecord
  congr 1
  funext j
  exact thermocouples_eq s j

theorem output_rows {a : RunArgs} {c : Control} {sch : Schedules} {N : ℕ} {S : ℕ → Sim n k}
    {U : ℕ → MinuteInput} {O : ℕ → RunOutput k} (hm : c.minutes < 500000)
    (h : ∀ j < N, (O j).add a c (shownTarget c sch j) j (U j) (S (j + 1)) = .ok (O (j + 1))) :
    ∀ j ≤ N, ∃ L : List Line, (O j).lines = (O 0).lines ++ L ∧ L.length = j ∧
      ∀ i < j, ∃ l, L[i]? = some l ∧
        (S (i + 1)).testRow ⟨(U i).drCode, shownTarget c sch i⟩ (minuteRecord a i (U i) (S (i + 1))) false =
          .ok l := by
  intro j
  induction j with
  | zero => intro _; exact ⟨[], by simp, rfl, by simp⟩
  | succ j ih =>
    intro hj
    obtain ⟨L, h1, h2, h3⟩ := ih (by omega)
    have hadd := h j (by omega)
    unfold RunOutput.add at hadd
    rw [if_pos hm] at hadd
    obtain ⟨l, hl, e⟩ := (bind_ok_iff _ _ _).mp hadd
    rw [runRecord_eq] at hl
    refine ⟨L ++ [l], ?_, by simp [h2], ?_⟩
    · rw [← Except.ok.inj e]; simp [h1]
    · intro i hi
      rcases Nat.lt_succ_iff_lt_or_eq.mp hi with hi | rfl
      · obtain ⟨l', hl', hr⟩ := h3 i hi
        exact ⟨l', by rw [List.getElem?_append_left (by omega)]; exact hl', hr⟩
      · exact ⟨l, by rw [List.getElem?_append_right (by omega), h2]; simp, hl⟩

/-- A test that comes to its end. -/
theorem runTest_ok {m : Libm} {fuel : ℕ} {a : RunArgs} {control : List ControlLine} {files : ScheduleFiles}
    {s s' : Sim n k} {e : Option ℕ} {out : List Line}
    (h : s.runTest m fuel a control files = .ok (e, s', out)) :
    ∃ c sch s0 hd o, readControl control = .ok c ∧ readSchedules files c.minutes = .ok sch ∧
      s.prepareRun a c sch = .ok s0 ∧ s0.runHeading c = .ok hd ∧
      runMinutes m fuel a c sch c.minutes.toNat 0 s0 ⟨[hd], fun _ => 0, fun _ => 0, 0⟩ = .ok (e, s', o) ∧
      out = o.lines := by
  unfold runTest at h
  obtain ⟨c, h1, h⟩ := (bind_ok_iff _ _ _).mp h
  obtain ⟨sch, h2, h⟩ := (bind_ok_iff _ _ _).mp h
  obtain ⟨s0, h3, h⟩ := (bind_ok_iff _ _ _).mp h
  obtain ⟨hd, h4, h⟩ := (bind_ok_iff _ _ _).mp h
  obtain ⟨⟨e', s'', o⟩, h5, h⟩ := (bind_ok_iff _ _ _).mp h
  cases h
  exact ⟨c, sch, s0, hd, o, h1, h2, h3, h4, h5, rfl⟩

/-- **C79.** A test of less than 500000 minutes that comes to its end has simulated every minute with the
values the schedules have for it, and its table has one row per minute, with the recorded values of the
minute under their names. -/
theorem C79_run_follows_schedules_partial (m : Libm) (fuel : ℕ) (a : RunArgs) (control : List ControlLine)
    (files : ScheduleFiles) (s s' : Sim n k) (out : List Line) (c : Control)
    (hc : readControl control = .ok c) (hm : c.minutes < 500000)
    (h : s.runTest m fuel a control files = .ok (none, s', out)) :
    ∃ sch s0 S U mp, readSchedules files c.minutes = .ok sch ∧ s.prepareRun a c sch = .ok s0 ∧
      S 0 = s0 ∧ S c.minutes.toNat = s' ∧ Course m fuel a c sch c.minutes.toNat S U ∧
      s0.isCompressorExternalMultipass = .ok mp ∧
      out.length = c.minutes.toNat + 1 ∧
      ∀ i < c.minutes.toNat, ∃ names row, out[0]? = some names ∧ out[i + 1]? = some row ∧
        let table := testTable (S (i + 1)) mp (U i).drCode (if c.useSoC then sch.soc[i]? else none)
          (minuteRecord a i (U i) (S (i + 1))) false
        columns names = table.map (fun p => [Tok.text p.1]) ∧ (columns row).map cellValue = table.map (·.2) := by
  obtain ⟨c', sch, s0, hd, o, h1, h2, h3, h4, h5, rfl⟩ := runTest_ok h
  obtain rfl : c = c' := Except.ok.inj (hc.symm.trans h1)
  obtain ⟨S, U, O, e1, e2, e3, e4, hj⟩ := runMinutes_ok _ _ _ _ _ _ h5
  simp only [zero_add] at hj
  obtain ⟨L, l1, l2, l3⟩ := output_rows hm (fun j hjN => (hj j hjN).2.2) _ le_rfl
  unfold runHeading at h4
  rw [if_neg (by omega)] at h4
  have hmp : ∃ mp, s0.isCompressorExternalMultipass = .ok mp := by
    unfold testHeading at h4
    obtain ⟨mp, hmp, -⟩ := (bind_ok_iff _ _ _).mp h4
    exact ⟨mp, hmp⟩
  obtain ⟨mp, hmp⟩ := hmp
  have hal : ∀ i ≤ c.minutes.toNat, Alike s0 (S i) := by
    intro i
    induction i with
    | zero => intro _; rw [e1]; exact ⟨rfl, rfl⟩
    | succ i ih =>
      intro hi
      have a1 := ih (by omega)
      have a2 := alike_minute (hj i (by omega)).1
      exact ⟨a2.1.trans a1.1, a2.2.trans a1.2⟩
  refine ⟨sch, s0, S, U, mp, h2, h3, e1, e2, course_of_minutes (fun j hjN => (hj j hjN).1), hmp, ?_, ?_⟩
  · rw [← e4, l1, e3]; simp [l2]
  · intro i hi
    obtain ⟨l, hl, hr⟩ := l3 i hi
    refine ⟨hd, l, ?_, ?_, ?_⟩
    · rw [← e4, l1, e3]; rfl
    · rw [← e4, l1, e3]
      simpa using hl
    · have hh : (S (i + 1)).testHeading false = .ok hd := by
        rw [alike_heading (hal (i + 1) (by omega))]; exact h4
      obtain ⟨mp', hmp', t1, t2⟩ := C75_test_table _ _ _ _ _ _ hh hr
      obtain rfl : mp = mp' := Except.ok.inj (hmp.symm.trans ((hal (i + 1) (by omega)).1.symm.trans hmp'))
      exact ⟨t1, t2⟩

/-- Finding: the command `run` cannot be used for water heaters without a compressor. -/
theorem C79_no_compressor (m : Libm) (fuel : ℕ) (a : RunArgs) (control : List ControlLine)
    (files : ScheduleFiles) (s s0 : Sim n k) (c : Control) (sch : Schedules)
    (hc : readControl control = .ok c) (hs : readSchedules files c.minutes = .ok sch)
    (hp : s.prepareRun a c sch = .ok s0) (hm : c.minutes ≤ 500000) (h : s0.cfg.compressorIndex = none) :
    s.runTest m fuel a control files = .error .error := by
  have hh : s0.runHeading c = .error .error := by
    unfold runHeading
    rw [if_neg (by omega)]
    unfold testHeading isCompressorExternalMultipass compressor
    simp [h, bind, Except.bind]
  unfold runTest
  rw [hc]
  simp only [bind, Except.bind, hs, hp, hh]

/-! ### The checks of the program -/

/-- With each of the setpoints in `X` the heat of every step is accounted for. -/
structure Checked (X : ℚ → Prop) (s : Sim n k) : Prop where
  all : ∀ x, X x → ({ s with setpoint := x } : Sim n k).AlwaysAccountable
  cur : X s.setpoint
  minute : s.cfg.minutesPerStep = 1

theorem Checked.accountable {X : ℚ → Prop} {s : Sim n k} (h : Checked X s) : s.AlwaysAccountable :=
  h.all _ h.cur

theorem alwaysAccountable_congr {s s' : Sim n k} (h : s.AlwaysAccountable)
    (hc : s'.tank.toTankCfg = s.tank.toTankCfg) (hcfg : s'.cfg = s.cfg) (hsp : s'.setpoint = s.setpoint) :
    s'.AlwaysAccountable := by
  refine ⟨h.nodes, ?_, ?_, ?_, ?_, ?_, ?_, ?_, ?_, ?_, ?_, ?_⟩
  · rw [hc]; exact h.volume
  · rw [hc]; exact h.nodeVolume
  · rw [hc]; exact h.nodeCp
  · rw [hc]; exact h.inlet
  · rw [hc]; exact h.inlet2
  · rw [hc]; exact h.mixBelow
  · rw [hc]; exact h.mixing
  · rw [hc]; exact h.effectiveness
  · rw [hcfg]; exact h.step
  · rw [hsp]; exact h.absolute
  · rw [hcfg, hsp]; exact h.sound

theorem Checked.setTargetSoC {X : ℚ → Prop} {s s' : Sim n k} {x : ℚ} (h : Checked X s)
    (hs : s.setTargetSoC x = .ok s') : Checked X s' := by
  rw [setTargetSoC_ok hs]
  refine ⟨fun y hy => ?_, h.cur, h.minute⟩
  have g := h.all y hy
  refine ⟨g.nodes, g.volume, g.nodeVolume, g.nodeCp, g.inlet, g.inlet2, g.mixBelow, g.mixing,
    g.effectiveness, g.step, g.absolute, ?_⟩
  intro i air lo
  have q := g.sound i air lo
  refine ⟨q.resistance, q.internal, ?_, q.output⟩
  intro cc h1 h2
  obtain ⟨b1, b2, b3⟩ := q.external cc h1 h2
  refine ⟨b1, b2, fun h3 l hl => ?_⟩
  obtain ⟨l', hl', rfl⟩ := List.mem_map.mp hl
  have := b3 h3 l' hl'
  split
  · exact this
  · exact this

/-- A minute in which no check fails. -/
theorem Checked.minuteStep {X : ℚ → Prop} {m : Libm} (hexp : ∀ x, 0 ≤ m.exp x) {fuel : ℕ} {a : RunArgs}
    {c : Control} {sch : Schedules} {i : ℕ} {s s' : Sim n k} {u : MinuteInput} (h : Checked X s)
    (hX : ∀ x ∈ sch.setpoint, X x) (hdraw : ∀ x ∈ sch.draw, 0 ≤ x)
    (hmix : ¬(a.model ≥ 210 ∧ c.minutes > 500000)) (hr : runMinute m fuel a c sch i s = .ok (u, s')) :
    Checked X s' ∧ minuteChecks u s.tank.heatContent s' = true := by
  obtain ⟨s1, s2, h1, h2, h3, h4⟩ := runMinute_ok hr
  have c1 : Checked X s1 ∧ s1.tank = s.tank := by
    split at h1
    · obtain ⟨x, hx, -, rfl⟩ := h1
      exact ⟨⟨h.all, hX x (List.mem_of_getElem? hx), h.minute⟩, rfl⟩
    · rw [h1]; exact ⟨h, rfl⟩
  have c2 : Checked X s2 ∧ s2.tank = s1.tank := by
    split at h2
    · obtain ⟨x, -, hx⟩ := h2
      exact ⟨c1.1.setTargetSoC hx, by rw [setTargetSoC_ok hx]⟩
    · rw [h2]; exact ⟨c1.1, rfl⟩
  have hd : 0 ≤ u.draw_L := by
    obtain ⟨x, g, hx, hg, e⟩ := (minuteInput_ok h3).2.2.2.1
    unfold mixDown at hg
    rw [if_neg hmix] at hg
    cases hg
    rw [e]
    have := hdraw _ (List.mem_of_getElem? hx)
    positivity
  have h' : (s2.setInletT u.inletT).AlwaysAccountable :=
    alwaysAccountable_congr c2.1.accountable rfl rfl rfl
  obtain ⟨lo, ha⟩ := h'.accountable u.step hd (by simp [MinuteInput.step])
  obtain ⟨b, b2, br, -, hc, hcfg, hsp, -⟩ := step_facts m hexp fuel _ s' u.step lo ⊤ ha h4
  have hc : s'.tank.toTankCfg = s2.tank.toTankCfg := hc
  have hcfg : s'.cfg = s2.cfg := hcfg
  have hsp : s'.setpoint = s2.setpoint := hsp
  refine ⟨⟨fun x hx => alwaysAccountable_congr (c2.1.all x hx) hc hcfg rfl, by rw [hsp]; exact c2.1.cur,
    by rw [hcfg]; exact c2.1.minute⟩, ?_⟩
  have hrem := C33_energy_from_environment m fuel _ s' u.step h4
  have hx : s'.extraEnergyInput_kWh = 0 := by rw [b2]; simp [MinuteInput.step]
  have hin : (s2.setInletT u.inletT).inletHeat u.step = waterHeat u.draw_L u.inletT := by
    unfold Sim.inletHeat MinuteInput.step Sim.setInletT waterHeat
    by_cases hz : u.draw_L = 0
    · simp [hz]
    · simp only [hz, ↓reduceIte]
      split_ifs <;> ring
  have hout : (if u.step.draw_L = 0 then 0 else waterHeat u.step.draw_L s'.tank.outletT) =
      waterHeat u.draw_L s'.tank.outletT := by
    unfold MinuteInput.step waterHeat
    by_cases hz : u.draw_L = 0
    · simp [hz]
    · simp only [hz, ↓reduceIte]
  rw [hin, hout, hx] at b
  have e0 : (s2.setInletT u.inletT).tank = s.tank := c2.2.trans c1.2
  rw [e0] at b
  have hvol : s'.tank.volume_L = s.tank.volume_L := by rw [hc, c2.2, c1.2]
  have e1 := Tank.heatContent_eq s.tank
  have e2 := Tank.heatContent_eq s'.tank
  rw [hvol] at e2
  have hsum : ∑ i, KWH_TO_KJ (s'.st i).energyInput_kWh =
      3600 * ∑ i, (s'.st i).energyInput_kWh := by
    rw [Finset.mul_sum]
    refine Finset.sum_congr rfl fun i _ => ?_
    unfold KWH_TO_KJ secPerHr secPerMin minPerHr
    ring
  unfold minuteChecks
  rw [Bool.and_eq_true, decide_eq_true_eq]
  constructor
  · unfold Sim.isEnergyBalanced
    rw [hsum]
    have e : s'.tank.heatContent - (s.tank.heatContent + 3600 * ∑ i, (s'.st i).energyInput_kWh +
        KWH_TO_KJ s'.extraEnergyInput_kWh + KWH_TO_KJ s'.energyRemoved_kWh -
        KWH_TO_KJ s'.standbyLosses_kWh -
        (cpWater * rhoWater * u.draw_L * (s'.tank.outletT - u.inletT) +
          cpWater * rhoWater * 0 * (s'.tank.outletT - 0))) = 0 := by
      rw [e1, e2, b, hrem, hx]
      unfold KWH_TO_KJ secPerHr secPerMin minPerHr waterHeat cpWater rhoWater
      ring
    simp only [e, abs_zero, zero_div]
    norm_num
  · intro j
    have hj := (br j).2
    have hone : (s2.setInletT u.inletT).cfg.minutesPerStep = 1 := c2.1.minute
    rw [hone] at hj
    exact not_lt.mpr hj

/-- **C79** (checks). A test of a water heater whose heat is accounted for at its setpoint and all
scheduled setpoints is never ended by the program's checks of energy and run times; draws must not be
negative, steps last a minute, and the draws are used as scheduled. -/
theorem C79_checks_pass (m : Libm) (hexp : ∀ x, 0 ≤ m.exp x) (fuel : ℕ) (a : RunArgs)
    (control : List ControlLine) (files : ScheduleFiles) (s s0 s' : Sim n k) (c : Control) (sch : Schedules)
    (e : Option ℕ) (out : List Line)
    (hc : readControl control = .ok c) (hs : readSchedules files c.minutes = .ok sch)
    (hp : s.prepareRun a c sch = .ok s0)
    (hacc : ∀ x, x = s0.setpoint ∨ x ∈ sch.setpoint → ({ s0 with setpoint := x } : Sim n k).AlwaysAccountable)
    (hstep : s0.cfg.minutesPerStep = 1) (hdraw : ∀ x ∈ sch.draw, 0 ≤ x)
    (hmix : a.model < 210 ∨ c.minutes ≤ 500000)
    (h : s.runTest m fuel a control files = .ok (e, s', out)) : e = none := by
  obtain ⟨c', sch', s0', hd, o, h1, h2, h3, h4, h5, rfl⟩ := runTest_ok h
  obtain rfl : c = c' := Except.ok.inj (hc.symm.trans h1)
  obtain rfl : sch = sch' := Except.ok.inj (hs.symm.trans h2)
  obtain rfl : s0 = s0' := Except.ok.inj (hp.symm.trans h3)
  have key : ∀ (count i : ℕ) (s1 s' : Sim n k) (o o' : RunOutput k) (e : Option ℕ),
      Checked (fun x => x = s0.setpoint ∨ x ∈ sch.setpoint) s1 →
      runMinutes m fuel a c sch count i s1 o = .ok (e, s', o') → e = none := by
    intro count
    induction count with
    | zero => intro i s1 s' o o' e _ h; cases h; rfl
    | succ count ih =>
      intro i s1 s' o o' e hk h
      unfold runMinutes at h
      obtain ⟨⟨u, s2⟩, h1, h⟩ := (bind_ok_iff _ _ _).mp h
      obtain ⟨k1, k2⟩ := hk.minuteStep hexp (fun x hx => .inr hx) hdraw (by push Not; intro hh; omega) h1
      simp only [k2, Bool.true_eq_false, if_false] at h
      obtain ⟨b, -, h⟩ := (bind_ok_iff _ _ _).mp h
      obtain ⟨o1, h2, h⟩ := (bind_ok_iff _ _ _).mp h
      exact ih _ _ _ _ _ _ k1 h
  exact key _ _ _ _ _ _ _ ⟨hacc, .inl rfl, hstep⟩ h5

/-! ### The change of the draws -/

/-- **C79, finding.** In tests of more than 500000 minutes of a large compressor the draw is changed so
that, at the temperature of the top node, it carries the heat of the scheduled draw at 125 °F. The inlet
temperature is used in °C among temperatures in °F: the heat is only right if the top node is at 125 °F (so
that nothing need be changed) or the inlet at -40 °C = -40 °F. -/
theorem C79_mixed_draw_wrong (a : RunArgs) (minutes : ℤ) (s : Sim n k) (inletT draw g : ℚ)
    (hm : a.model ≥ 210 ∧ minutes > 500000) (hsp : s.setpoint ≤ 125) (hd : draw ≠ 0)
    (h : mixDown a minutes s inletT draw = .ok g) :
    let top := 9 / 5 * s.tank.nodeTs (Fin.last n) + 32
    let inlet := 9 / 5 * inletT + 32
    g * (top - inlet) = draw * (125 - inlet) ↔ top = 125 ∨ inletT = -40 := by
  unfold mixDown at h
  rw [if_pos hm, if_pos hsp] at h
  have htop : C_TO_F (s.tank.nodeTs (Fin.last n)) = 9 / 5 * s.tank.nodeTs (Fin.last n) + 32 := by
    unfold C_TO_F FperC offsetF; rfl
  rw [htop] at h
  simp only at h
  generalize 9 / 5 * s.tank.nodeTs (Fin.last n) + 32 = T at h
  intro top inlet
  change g * (T - inlet) = _ ↔ T = 125 ∨ _
  split at h
  · cases h
  · rename_i hne
    rw [← Except.ok.inj h]
    have e : draw * ((125 - inletT) / (T - inletT)) * (T - inlet) - draw * (125 - inlet) =
        draw * ((T - 125) * (inlet - inletT)) / (T - inletT) := by
      field_simp
      ring
    rw [← sub_eq_zero, e, div_eq_zero_iff, mul_eq_zero, mul_eq_zero, sub_eq_zero, sub_eq_zero]
    simp only [hne, hd, or_false, false_or]
    constructor
    · rintro (h | h)
      · exact .inl h
      · right; simp only [inlet] at h; linarith
    · rintro (h | h)
      · exact .inl h
      · right; simp only [inlet]; linarith

/-! ## C80 -/

theorem dayLine_columns (i : ℕ) (x y : Fin k → ℚ) :
    (columns (dayLine i x y)).map cellValue =
      some ((((i + 1) / 1440 : ℕ) : ℚ) - 1) :: (List.finRange k).flatMap fun j => [some (x j), some (y j)] := by
  have e : dayLine i x y = [.num 0 ((((i + 1) / 1440 : ℕ) : ℚ) - 1)] ++
      joined ((List.finRange k).flatMap fun j => [[.num 0 (x j)], [.num 0 (y j)]]) := by
    unfold dayLine
    rw [joined, List.flatMap_assoc]
    rfl
  rw [e, columns_joined _ (by simp)]
  · rw [List.map_cons, List.map_flatMap]
    rfl
  · intro c hc t ht
    simp only [List.mem_flatMap, List.mem_cons, List.not_mem_nil, or_false] at hc
    obtain ⟨i, -, rfl | rfl⟩ := hc <;> simp only [List.mem_singleton] at ht <;> rw [ht] <;> simp

theorem dayTable_values (d : ℕ) (S : ℕ → Sim n k) :
    (dayTable d S).map (·.2) = some (d : ℚ) :: (List.finRange k).flatMap fun j =>
      [some (∑ t ∈ Finset.range 1440, ((S (1440 * d + t + 1)).st j).energyInput_kWh * 1000),
       some (∑ t ∈ Finset.range 1440, ((S (1440 * d + t + 1)).st j).energyOutput_kWh * 1000)] := by
  simp only [dayTable, List.map_flatMap, List.map_cons, List.map_nil, List.cons_append,
    List.nil_append]

theorem dayTable_names (d : ℕ) (S : ℕ → Sim n k) :
    columns ([.text "time (day)"] ++ sourceNames k) = (dayTable d S).map (fun p => [Tok.text p.1]) := by
  rw [← joined_sources (fun _ => 0) (fun _ => 0), columns_joined _ (by simp) _ (headed_noComma _)]
  simp only [dayTable, sourceTable, headed, List.map_flatMap, List.map_cons, List.map_nil,
    List.cons_append, List.nil_append]

/-- A line has a column more than it has commas. -/
theorem columns_length (l : Line) : (columns l).length = l.countP (fun t => t matches .comma) + 1 := by
  induction l with
  | nil => rfl
  | cons t l ih =>
    cases h : columns l with
    | nil => exact absurd h (columns_ne_nil l)
    | cons c cs =>
      rw [h] at ih
      cases t <;> simp only [columns, h, List.countP_cons] <;> simp_all

theorem sourceNames_commas (k : ℕ) : (sourceNames k).countP (fun t => t matches .comma) = 2 * k := by
  unfold sourceNames
  induction k with
  | zero => rfl
  | succ k ih =>
    rw [List.range_succ, List.flatMap_append, List.countP_append, ih]
    simp
    omega

theorem output_days {a : RunArgs} {c : Control} {sch : Schedules} {N : ℕ} {S : ℕ → Sim n k}
    {U : ℕ → MinuteInput} {O : ℕ → RunOutput k} (hm : 500000 ≤ c.minutes)
    (h0 : (O 0).cumIn = (fun _ => 0) ∧ (O 0).cumOut = (fun _ => 0) ∧ (O 0).minuteOfDay = 0)
    (h : ∀ j < N, (O j).add a c (shownTarget c sch j) j (U j) (S (j + 1)) = .ok (O (j + 1))) :
    ∀ j ≤ N, ∃ L : List Line, (O j).lines = (O 0).lines ++ L ∧ L.length = j / 1440 ∧
      (∀ d < j / 1440, ∃ l, L[d]? = some l ∧
        (columns l).map cellValue = (dayTable d S).map (·.2)) ∧
      (O j).minuteOfDay = j % 1440 ∧
      (∀ x, (O j).cumIn x =
        ∑ t ∈ Finset.range (j % 1440), ((S (1440 * (j / 1440) + t + 1)).st x).energyInput_kWh * 1000) ∧
      (∀ x, (O j).cumOut x =
        ∑ t ∈ Finset.range (j % 1440), ((S (1440 * (j / 1440) + t + 1)).st x).energyOutput_kWh * 1000) := by
  intro j
  induction j with
  | zero =>
    intro _
    refine ⟨[], by simp, rfl, by simp, h0.2.2, fun x => ?_, fun x => ?_⟩
    · rw [h0.1]; rfl
    · rw [h0.2.1]; rfl
  | succ j ih =>
    intro hj
    obtain ⟨L, h1, h2, h3, h4, h5, h6⟩ := ih (by omega)
    have hadd := h j (by omega)
    unfold RunOutput.add at hadd
    rw [if_neg (by omega)] at hadd
    by_cases hk : k > 3
    · rw [if_pos hk] at hadd; cases hadd
    · rw [if_neg hk] at hadd
      simp only at hadd
      have hj' : j = 1440 * (j / 1440) + j % 1440 := by omega
      have i5 : ∀ x, (O j).cumIn x + ((S (j + 1)).st x).energyInput_kWh * 1000 =
          ∑ t ∈ Finset.range (j % 1440 + 1),
            ((S (1440 * (j / 1440) + t + 1)).st x).energyInput_kWh * 1000 := by
        intro x
        rw [Finset.sum_range_succ, h5, ← hj']
      have i6 : ∀ x, (O j).cumOut x + ((S (j + 1)).st x).energyOutput_kWh * 1000 =
          ∑ t ∈ Finset.range (j % 1440 + 1),
            ((S (1440 * (j / 1440) + t + 1)).st x).energyOutput_kWh * 1000 := by
        intro x
        rw [Finset.sum_range_succ, h6, ← hj']
      by_cases hl : (O j).minuteOfDay ≥ 1439
      · rw [if_pos hl] at hadd
        have hO := Except.ok.inj hadd
        have hmod : j % 1440 = 1439 := by omega
        have hdiv : (j + 1) / 1440 = j / 1440 + 1 := by omega
        have hmod' : (j + 1) % 1440 = 0 := by omega
        refine ⟨L ++ [dayLine j (fun x => (O j).cumIn x + ((S (j + 1)).st x).energyInput_kWh * 1000)
          (fun x => (O j).cumOut x + ((S (j + 1)).st x).energyOutput_kWh * 1000)], ?_, ?_, ?_, ?_, ?_, ?_⟩
        · rw [← hO]; simp [h1]
        · rw [hdiv]; simp [h2]
        · intro d hd
          rw [hdiv] at hd
          rcases Nat.lt_succ_iff_lt_or_eq.mp hd with hd | rfl
          · obtain ⟨l, hl', hv⟩ := h3 d hd
            exact ⟨l, by rw [List.getElem?_append_left (by omega)]; exact hl', hv⟩
          · refine ⟨_, by rw [List.getElem?_append_right (by omega), h2]; simp; rfl, ?_⟩
            rw [dayLine_columns, dayTable_values, hdiv]
            simp only [i5, i6, hmod]
            push_cast
            simp
        · rw [← hO, hmod']
        · intro x; rw [← hO, hmod']; rfl
        · intro x; rw [← hO, hmod']; rfl
      · rw [if_neg hl] at hadd
        have hO := Except.ok.inj hadd
        have hdiv : (j + 1) / 1440 = j / 1440 := by omega
        have hmod' : (j + 1) % 1440 = j % 1440 + 1 := by omega
        refine ⟨L, ?_, by rw [hdiv]; exact h2, by rw [hdiv]; exact h3, ?_, ?_, ?_⟩
        · rw [← hO]; exact h1
        · rw [← hO, hmod', ← h4]
        · intro x; rw [← hO, hmod', hdiv]; exact i5 x
        · intro x; rw [← hO, hmod', hdiv]; exact i6 x

/-- **C80.** A test of more than 500000 minutes that comes to its end has simulated every minute as
scheduled, and its table has one row per complete day, with the energies of each heat source summed over
the 1440 minutes of that day and no others, under their names. -/
theorem C80_daily_sums_partial (m : Libm) (fuel : ℕ) (a : RunArgs) (control : List ControlLine)
    (files : ScheduleFiles) (s s' : Sim n k) (out : List Line) (c : Control)
    (hc : readControl control = .ok c) (hm : c.minutes > 500000)
    (h : s.runTest m fuel a control files = .ok (none, s', out)) :
    ∃ sch s0 S U, readSchedules files c.minutes = .ok sch ∧ s.prepareRun a c sch = .ok s0 ∧
      S 0 = s0 ∧ S c.minutes.toNat = s' ∧ Course m fuel a c sch c.minutes.toNat S U ∧
      out.length = c.minutes.toNat / 1440 + 1 ∧
      ∀ d < c.minutes.toNat / 1440, ∃ names row, out[0]? = some names ∧ out[d + 1]? = some row ∧
        columns names = (dayTable d S).map (fun p => [Tok.text p.1]) ∧
        (columns row).map cellValue = (dayTable d S).map (·.2) := by
  obtain ⟨c', sch, s0, hd, o, h1, h2, h3, h4, h5, rfl⟩ := runTest_ok h
  obtain rfl : c = c' := Except.ok.inj (hc.symm.trans h1)
  obtain ⟨S, U, O, e1, e2, e3, e4, hj⟩ := runMinutes_ok _ _ _ _ _ _ h5
  simp only [zero_add] at hj
  obtain ⟨L, l1, l2, l3, -⟩ := output_days hm.le (by rw [e3]; exact ⟨rfl, rfl, rfl⟩)
    (fun j hjN => (hj j hjN).2.2) _ le_rfl
  unfold runHeading at h4
  rw [if_pos hm] at h4
  refine ⟨sch, s0, S, U, h2, h3, e1, e2, course_of_minutes (fun j hjN => (hj j hjN).1), ?_, ?_⟩
  · rw [← e4, l1, e3]; simp [l2]
  · intro d hdN
    obtain ⟨l, hl, hr⟩ := l3 d hdN
    refine ⟨hd, l, ?_, ?_, ?_, hr⟩
    · rw [← e4, l1, e3]; rfl
    · rw [← e4, l1, e3]
      simpa using hl
    · rw [← Except.ok.inj h4]
      exact dayTable_names d S

/-- **C80, finding.** In a test of 500000 minutes or more a water heater with more than three heat sources
writes outside the arrays of sums as soon as a minute has passed the checks. -/
theorem C80_four_sources_undefined (m : Libm) (fuel : ℕ) (a : RunArgs) (control : List ControlLine)
    (files : ScheduleFiles) (s s0 s1 : Sim n k) (c : Control) (sch : Schedules) (hd : Line) (u : MinuteInput)
    (mp : Bool) (hk : k > 3) (hm : c.minutes ≥ 500000)
    (hc : readControl control = .ok c) (hs : readSchedules files c.minutes = .ok sch)
    (hp : s.prepareRun a c sch = .ok s0) (hh : s0.runHeading c = .ok hd)
    (h1 : runMinute m fuel a c sch 0 s0 = .ok (u, s1)) (h2 : minuteChecks u s0.tank.heatContent s1 = true)
    (h3 : s1.isCompressorExternalMultipass = .ok mp) :
    s.runTest m fuel a control files = .error .ub := by
  obtain ⟨N, hN⟩ : ∃ N, c.minutes.toNat = N + 1 := ⟨c.minutes.toNat - 1, by omega⟩
  unfold runTest
  rw [hc]
  simp only [bind, Except.bind, hs, hp, hh, hN]
  unfold runMinutes
  simp only [bind, Except.bind, h1, h2, h3, Bool.true_eq_false, if_false]
  unfold RunOutput.add
  rw [if_neg (by omega), if_pos hk]

/-- **C80, finding.** In a test of exactly 500000 minutes the heading is that of a table with a row per
minute, but the rows are those of days: the heading has more columns than any row. -/
theorem C80_boundary_heading (m : Libm) (fuel : ℕ) (a : RunArgs) (control : List ControlLine)
    (files : ScheduleFiles) (s s' : Sim n k) (out : List Line) (c : Control)
    (hc : readControl control = .ok c) (hm : c.minutes = 500000)
    (h : s.runTest m fuel a control files = .ok (none, s', out)) (d : ℕ) (hd : d < 347) :
    ∃ names row, out[0]? = some names ∧ out[d + 1]? = some row ∧
      (columns row).length + 12 ≤ (columns names).length := by
  obtain ⟨c', sch, s0, hdg, o, h1, h2, h3, h4, h5, rfl⟩ := runTest_ok h
  obtain rfl : c = c' := Except.ok.inj (hc.symm.trans h1)
  obtain ⟨S, U, O, e1, e2, e3, e4, hj⟩ := runMinutes_ok _ _ _ _ _ _ h5
  simp only [zero_add] at hj
  obtain ⟨L, l1, l2, l3, -⟩ := output_days hm.ge (by rw [e3]; exact ⟨rfl, rfl, rfl⟩)
    (fun j hjN => (hj j hjN).2.2) _ le_rfl
  obtain ⟨l, hl, hr⟩ := l3 d (by rw [hm]; exact hd)
  unfold runHeading at h4
  rw [if_neg (by omega)] at h4
  refine ⟨hdg, l, ?_, ?_, ?_⟩
  · rw [← e4, l1, e3]; rfl
  · rw [← e4, l1, e3]
    simpa using hl
  · have hlen := congrArg List.length hr
    rw [dayTable_values] at hlen
    simp only [List.length_map, List.length_cons, List.length_flatMap, List.length_nil, zero_add,
      List.map_const', List.sum_replicate, List.length_finRange, smul_eq_mul] at hlen
    unfold testHeading at h4
    obtain ⟨mp, -, h4⟩ := (bind_ok_iff _ _ _).mp h4
    rw [hlen, ← Except.ok.inj h4, columns_length]
    simp only [List.countP_append, sourceNames_commas, List.countP_cons, List.countP_nil, thermocoupleNames,
      List.range_succ, List.range_zero, List.flatMap_append, List.flatMap_cons, List.flatMap_nil,
      List.nil_append]
    simp
    omega

end HPWH
