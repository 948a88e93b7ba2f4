import Verif.Props.Run
import Verif.Props.Between

/-! # The bound on the passes of external heating does not matter

The model stops the loops of external heating after `fuel` passes and reports `diverge`. Any other result is the result
for every larger bound, so it is the result of the loop without a bound. -/

namespace HPWH

open Sim

variable {n k : ℕ}

/-- Either the bound was too small, or the results agree. -/
def Settles {α : Type} (x y : Res α) : Prop := x = .error .diverge ∨ x = y

theorem Settles.refl {α : Type} (x : Res α) : Settles x x := .inr rfl

theorem Settles.bind {α β : Type} {x y : Res α} {f g : α → Res β} (h : Settles x y)
    (hf : ∀ a, Settles (f a) (g a)) : Settles (x >>= f) (y >>= g) := by
  rcases h with rfl | rfl
  · exact .inl rfl
  · cases x with
    | error e => exact .inr rfl
    | ok a => exact hf a

theorem Settles.bind' {α β : Type} {x : Res α} {f g : α → Res β}
    (hf : ∀ a, Settles (f a) (g a)) : Settles (x >>= f) (x >>= g) := (Settles.refl x).bind hf

theorem Settles.ite {α : Type} {c : Prop} [Decidable c] {x y x' y' : Res α} (h : Settles x x')
    (h' : Settles y y') : Settles (if c then x else y) (if c then x' else y') := by
  split
  · exact h
  · exact h'

theorem spLoop_settles (s : SourceCfg n k) (c : CondCfg) (externalT : ℚ) (fuel : ℕ) (a : ExtState n) :
    Settles (spLoop s c externalT fuel a) (spLoop s c externalT (fuel + 1) a) := by
  induction fuel generalizing a with
  | zero => exact .inl rfl
  | succ fuel ih =>
    rw [spLoop, spLoop]
    refine Settles.bind' fun r => ?_
    cases r with
    | none => exact Settles.refl _
    | some a' =>
      refine Settles.ite (Settles.bind' fun off => Settles.ite (Settles.refl _) (ih a')) (Settles.refl _)

theorem mpLoop_settles (s : SourceCfg n k) (c : CondCfg) (externalT : ℚ) (fuel : ℕ) (a : ExtState n) :
    Settles (mpLoop s c externalT fuel a) (mpLoop s c externalT (fuel + 1) a) := by
  induction fuel generalizing a with
  | zero => exact .inl rfl
  | succ fuel ih =>
    rw [mpLoop, mpLoop]
    refine Settles.bind' fun r => ?_
    exact Settles.ite (Settles.bind' fun off => Settles.ite (Settles.refl _) (ih r)) (Settles.refl _)

theorem addHeatKind_settles (m : Libm) (fuel : ℕ) (src : SourceCfg n k) (p : Plant n) (st : SourceState)
    (amb minutes : ℚ) :
    Settles (addHeatKind m fuel src p st amb minutes) (addHeatKind m (fuel + 1) src p st amb minutes) := by
  unfold addHeatKind
  cases src.kind with
  | resistance power => exact Settles.refl _
  | condenser c =>
    simp only [condenserAddHeat]
    cases c.configuration with
    | submerged => exact Settles.refl _
    | wrapped => exact Settles.refl _
    | external =>
      refine Settles.bind ?_ fun _ => Settles.refl _
      unfold addHeatExternal
      exact Settles.ite (Settles.bind (mpLoop_settles ..) fun _ => Settles.refl _)
        (Settles.bind (spLoop_settles ..) fun _ => Settles.refl _)

theorem addHeat_settles (m : Libm) (fuel : ℕ) (s : Sim n k) (i : Fin k) (amb minutes : ℚ) :
    Settles (s.addHeat m fuel i amb minutes) (s.addHeat m (fuel + 1) i amb minutes) :=
  Settles.bind (addHeatKind_settles ..) fun _ => Settles.refl _

theorem addHeatParent_settles (m : Libm) (fuel : ℕ) (s : Sim n k) (i : Fin k) (amb minutes : ℚ) :
    Settles (s.addHeatParent m fuel i amb minutes) (s.addHeatParent m (fuel + 1) i amb minutes) := by
  unfold addHeatParent
  cases (s.cfg.src i).kind with
  | resistance power => exact addHeat_settles ..
  | condenser c =>
    refine Settles.ite ?_ (addHeat_settles ..)
    exact Settles.bind' fun s1 => Settles.bind (addHeat_settles ..) fun _ => Settles.refl _

theorem runBackup_settles (m : Libm) (fuel : ℕ) (dr : DR) (amb : ℚ) (s : Sim n k) (b : Fin k) (minutes : ℚ) :
    Settles (runBackup m fuel dr amb s b minutes) (runBackup m (fuel + 1) dr amb s b minutes) := by
  unfold runBackup
  refine Settles.bind' fun r => Settles.ite (Settles.bind' fun s1 => ?_) (Settles.refl _)
  exact Settles.ite (addHeatParent_settles ..) (Settles.refl _)

theorem afterEarly_settles (m : Libm) (fuel : ℕ) (dr : DR) (amb : ℚ) (s : Sim n k) (i : Fin k) (minutes : ℚ) :
    Settles (afterEarly m fuel dr amb s i minutes) (afterEarly m (fuel + 1) dr amb s i minutes) := by
  unfold afterEarly
  refine Settles.bind' fun f => ?_
  cases f with
  | some f => exact Settles.refl _
  | none =>
    refine Settles.bind' fun mx => ?_
    cases mx
    · exact Settles.refl _
    · cases (s.cfg.src i).backup with
      | none => exact Settles.refl _
      | some b => exact runBackup_settles ..

theorem runSource_settles (m : Libm) (fuel : ℕ) (dr : DR) (amb : ℚ) (s : Sim n k) (i j : Fin k) (minutes : ℚ) :
    Settles (runSource m fuel dr amb s i j minutes) (runSource m (fuel + 1) dr amb s i j minutes) := by
  unfold runSource
  refine Settles.bind (addHeatParent_settles ..) fun s1 => Settles.ite ?_ (Settles.refl _)
  exact Settles.bind (afterEarly_settles ..) fun _ => Settles.refl _

theorem heatSrcLoop_settles (m : Libm) (fuel : ℕ) (dr : DR) (amb : ℚ) (is : List (Fin k)) (s : Sim n k)
    (minutes : ℚ) :
    Settles (heatSrcLoop m fuel dr amb is s minutes) (heatSrcLoop m (fuel + 1) dr amb is s minutes) := by
  induction is generalizing s minutes with
  | nil => exact Settles.refl _
  | cons i is ih =>
    rw [heatSrcLoop, heatSrcLoop]
    refine Settles.bind ?_ fun r => ih r.1 r.2
    unfold heatBody
    refine Settles.bind' fun s1 => Settles.ite (Settles.bind' fun r => ?_) (Settles.refl _)
    cases r.2 with
    | none => exact Settles.refl _
    | some j => exact runSource_settles ..

theorem control_settles (m : Libm) (fuel : ℕ) (dr : DR) (amb : ℚ) (s : Sim n k) :
    Settles (Sim.control m fuel dr amb s) (Sim.control m (fuel + 1) dr amb s) := by
  unfold Sim.control normalControl
  refine Settles.bind (Settles.ite (Settles.refl _) ?_) fun _ => Settles.refl _
  exact Settles.bind' fun a => Settles.bind' fun b => heatSrcLoop_settles ..

theorem runOneStep_settles (m : Libm) (fuel : ℕ) (s : Sim n k) (u : StepInput) :
    Settles (runOneStep m fuel s u) (runOneStep m (fuel + 1) s u) := by
  unfold runOneStep
  refine Settles.ite (Settles.refl _) (Settles.bind' fun t => Settles.bind' fun p => ?_)
  exact Settles.bind (control_settles ..) fun _ => Settles.refl _

theorem settles_le {α : Type} (f : ℕ → Res α) (h : ∀ i, Settles (f i) (f (i + 1))) {i j : ℕ} (hij : i ≤ j) :
    Settles (f i) (f j) := by
  induction j, hij using Nat.le_induction with
  | base => exact Settles.refl _
  | succ j _ ih =>
    rcases ih with e | e
    · exact .inl e
    · rw [e]; exact h j

/-- **C18.** A step whose loops finish within some bound gives the same result, success or error, with every larger
bound. -/
theorem C18_bound_step (m : Libm) (i j : ℕ) (hij : i ≤ j) (s : Sim n k) (u : StepInput)
    (h : runOneStep m i s u ≠ .error .diverge) : runOneStep m j s u = runOneStep m i s u := by
  rcases settles_le (fun f => runOneStep m f s u) (fun f => runOneStep_settles m f s u) hij with e | e
  · exact absurd e h
  · exact e.symm

/-- The bound matters where a condenser is external: with bound 0 the sample does not finish, with bound 1 it does. -/
example :
    (match runOneStep sampleLibm 0 passingSim { sampleInput with draw_L := 0, inletVol2_L := 0 } with
      | .error .diverge => true | _ => false) = true ∧
    ∃ s', runOneStep sampleLibm 1 passingSim { sampleInput with draw_L := 0, inletVol2_L := 0 } = .ok s' ∧
      s'.tank.nodeTs 3 ≠ 54 := by
  decide +kernel

theorem runLoop_settles (m : Libm) (fuel : ℕ) (us : List RunInput) (s : Sim n k) (a : RunSums k) :
    Settles (runLoop m fuel us s a) (runLoop m (fuel + 1) us s a) := by
  induction us generalizing s a with
  | nil => exact Settles.refl _
  | cons u us ih =>
    rw [runLoop, runLoop]
    exact Settles.bind (runOneStep_settles ..) fun s1 => ih s1 _

/-- **C18.** The same for runs of any length. -/
theorem C18_bound_run (m : Libm) (i j : ℕ) (hij : i ≤ j) (s : Sim n k) (us : List RunInput)
    (h : runNSteps m i s us ≠ .error .diverge) : runNSteps m j s us = runNSteps m i s us := by
  have key : ∀ f, Settles (runNSteps m f s us) (runNSteps m (f + 1) s us) := fun f => by
    unfold runNSteps
    exact Settles.bind (runLoop_settles ..) fun _ => Settles.refl _
  rcases settles_le (fun f => runNSteps m f s us) key hij with e | e
  · exact absurd e h
  · exact e.symm

/-- The hypothesis is met by the sample run. -/
example : runNSteps sampleLibm 5 sampleSim sampleRun ≠ .error .diverge := by
  have h : ∃ r, runNSteps sampleLibm 5 sampleSim sampleRun = .ok r ∧ r.1.setpoint = 55 := by decide +kernel
  obtain ⟨r, hr, -⟩ := h
  rw [hr]; exact fun h => by cases h

end HPWH
