import Verif.Props.Fuel
import Verif.Props.FirstHour

/-! # The bounds of the loops do not matter for the standard tests either -/

namespace HPWH

open Spec Sim

variable {n k : ℕ}

theorem testStep_settles (m : Libm) (fuel : ℕ) (c : TestConditions) (dr : DR) (s : Sim n k) (v : ℚ) :
    Settles (testStep m fuel c dr s v) (testStep m (fuel + 1) c dr s v) := runOneStep_settles ..

theorem prepLoop_settles (m : Libm) (fuel fuel' : ℕ) (hf : ∀ c dr (s : Sim n k) v, Settles (testStep m fuel c dr s v)
    (testStep m fuel' c dr s v)) (c : TestConditions) (flow : ℚ) (limit d : ℕ) (s : Sim n k) (p : PrepPhase) (b : Bool) :
    Settles (prepLoop m fuel c flow limit s p b) (prepLoop m fuel' c flow (limit + d) s p b) := by
  induction limit generalizing s p b with
  | zero => exact .inl rfl
  | succ limit ih =>
    rw [show limit + 1 + d = limit + d + 1 by omega]
    unfold prepLoop
    exact Settles.bind (hf ..) fun s1 => Settles.ite (Settles.refl _) (ih ..)

theorem ratingLoop_settles (m : Libm) (fuel fuel' : ℕ) (hf : ∀ c dr (s : Sim n k) v, Settles (testStep m fuel c dr s v)
    (testStep m fuel' c dr s v)) (c : TestConditions) (flow : ℚ) (limit d : ℕ) (s : Sim n k) (r : RatingState) :
    Settles (ratingLoop m fuel c flow limit s r) (ratingLoop m fuel' c flow (limit + d) s r) := by
  induction limit generalizing s r with
  | zero => exact .inl rfl
  | succ limit ih =>
    rw [show limit + 1 + d = limit + d + 1 by omega]
    unfold ratingLoop
    refine Settles.bind (hf ..) fun s1 => Settles.bind' fun x => ?_
    cases x with
    | inl x => exact Settles.refl _
    | inr r1 => exact ih ..

theorem idleLoop_settles (m : Libm) (fuel fuel' : ℕ) (hf : ∀ c dr (s : Sim n k) v, Settles (testStep m fuel c dr s v)
    (testStep m fuel' c dr s v)) (c : TestConditions) (limit d pre : ℕ) (on : Bool) (s : Sim n k)
    (l : List (TestRecord k)) :
    Settles (idleLoop m fuel c limit pre on s l) (idleLoop m fuel' c (limit + d) pre on s l) := by
  induction limit generalizing pre on s l with
  | zero => exact .inl rfl
  | succ limit ih =>
    rw [show limit + 1 + d = limit + d + 1 by omega]
    unfold idleLoop
    exact Settles.ite (Settles.bind (hf ..) fun s1 => ih ..) (Settles.refl _)

theorem dayLoop_settles (m : Libm) (fuel fuel' : ℕ) (hf : ∀ c dr (s : Sim n k) v, Settles (testStep m fuel c dr s v)
    (testStep m fuel' c dr s v)) (c : TestConditions) (initialT : ℚ) (t count : ℕ) (d : Day n k) :
    Settles (Day.loop m fuel c initialT t count d) (Day.loop m fuel' c initialT t count d) := by
  induction count generalizing t d with
  | zero => exact Settles.refl _
  | succ count ih =>
    unfold Day.loop
    refine Settles.bind ?_ fun _ => ih ..
    unfold Day.minute
    exact Settles.bind (hf ..) fun _ => Settles.refl _

theorem testStep_settles_le (m : Libm) {i j : ℕ} (hij : i ≤ j) (c : TestConditions) (dr : DR) (s : Sim n k) (v : ℚ) :
    Settles (testStep m i c dr s v) (testStep m j c dr s v) :=
  settles_le (fun f => testStep m f c dr s v) (fun f => testStep_settles m f c dr s v) hij

theorem prepareForTest_settles (m : Libm) {i j a b : ℕ} (hij : i ≤ j) (hab : a ≤ b) (c : TestConditions) (s : Sim n k) :
    Settles (prepareForTest m i a c s) (prepareForTest m j b c s) := by
  obtain ⟨d, rfl⟩ := Nat.le.dest hab
  exact prepLoop_settles m i j (fun _ _ _ _ => testStep_settles_le m hij ..) ..

/-- **C18.** A first-hour rating that comes to an end within some bounds gives the same result, or the same error, with
all larger bounds. -/
theorem C18_bound_rating (m : Libm) (i j a b : ℕ) (hij : i ≤ j) (hab : a ≤ b) (s : Sim n k)
    (h : findFirstHourRating m i a s ≠ .error .diverge) : findFirstHourRating m j b s = findFirstHourRating m i a s := by
  have key : Settles (findFirstHourRating m i a s) (findFirstHourRating m j b s) := by
    unfold findFirstHourRating
    refine Settles.bind' fun s1 => Settles.bind (prepareForTest_settles m hij hab ..) fun s2 => ?_
    refine Settles.bind ?_ fun _ => Settles.refl _
    obtain ⟨d, rfl⟩ := Nat.le.dest hab
    exact ratingLoop_settles m i j (fun _ _ _ _ => testStep_settles_le m hij ..) ..
  rcases key with e | e
  · exact absurd e h
  · exact e.symm

/-- So the rating of the water heater of C74 is 64 litres with all larger bounds. -/
example (j b : ℕ) (hj : 5 ≤ j) (hb : 100 ≤ b) : ∃ s', findFirstHourRating sampleLibm j b hourSim = .ok (s', 64, .verySmall) := by
  obtain ⟨s', h⟩ := hourSim_returns
  exact ⟨s', (C18_bound_rating sampleLibm 5 j 100 b hj hb hourSim (by rw [h]; intro e; cases e)).trans h⟩

/-- **C18.** The same for a 24-hour test. -/
theorem C18_bound_day (m : Libm) (i j a b : ℕ) (hij : i ≤ j) (hab : a ≤ b) (c : TestConditions) (d : Designation)
    (s : Sim n k) (h : run24hrTest m i a c d s ≠ .error .diverge) :
    run24hrTest m j b c d s = run24hrTest m i a c d s := by
  have key : Settles (run24hrTest m i a c d s) (run24hrTest m j b c d s) := by
    unfold run24hrTest
    refine Settles.bind' fun s1 => Settles.bind (prepareForTest_settles m hij hab ..) fun s2 => ?_
    refine Settles.bind ?_ fun r => Settles.bind ?_ fun _ => Settles.refl _
    · obtain ⟨d, rfl⟩ := Nat.le.dest hab
      exact idleLoop_settles m i j (fun _ _ _ _ => testStep_settles_le m hij ..) ..
    · exact dayLoop_settles m i j (fun _ _ _ _ => testStep_settles_le m hij ..) ..
  rcases key with e | e
  · exact absurd e h
  · exact e.symm

end HPWH
