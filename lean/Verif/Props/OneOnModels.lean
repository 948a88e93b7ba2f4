import Verif.Props.OneOn
import Verif.Props.PresetRuns

/-! # One heat source at a time: the built-in models (C111) -/

namespace HPWH

open Spec

variable {n k n₀ k₀ : ℕ}

/-- Checks that heat sources with priority are elements, or that there is only one heat source. -/
def Preset.priorityOk (p : Preset) : Bool :=
  decide (p.k ≤ 1) || (List.finRange p.k).all fun i =>
    !(p.src i).cfg.isVIP || match (p.src i).cfg.kind with
      | .resistance _ => true
      | .condenser _ => false

/-- Checks that no heat source has a companion. -/
def Preset.companionless (p : Preset) : Bool := (List.finRange p.k).all fun i => (p.src i).cfg.companion.isNone

theorem Preset.companionless_iff {p : Preset} : p.companionless = true ↔ ∀ i, (p.src i).cfg.companion = none := by
  unfold Preset.companionless
  simp

theorem table_priority : ∀ q ∈ Presets.table, q.2.companionless = true → q.2.priorityOk = true := by decide +kernel

/-- Runs of a simulator without companions. -/
theorem runLoop_one_on (m : Libm) (fuel : ℕ) (us : List Sim.RunInput) (hd : ∀ u ∈ us, PlainSignal u.dr) (s : Sim n k)
    (hp : NoCompanions s) (h1 : OneAtMost s) (a : Sim.RunSums k) (r : Sim n k × Sim.RunSums k)
    (h : Sim.runLoop m fuel us s a = .ok r) : OneAtMost r.1 := by
  induction us generalizing s a with
  | nil => cases h; exact h1
  | cons u us ih =>
    rw [Sim.runLoop, bind_ok_iff] at h
    obtain ⟨s1, e1, e2⟩ := h
    have := C111_one_on m fuel 1 (fun t => if t = 0 then s.setInletT u.inletT else s1) (fun _ => u.step)
      (fun t ht => by
        obtain rfl : t = 0 := by omega
        exact e1)
      (show NoCompanions (s.setInletT u.inletT) from hp.of_cfg rfl) ⟨h1.alone, h1.known⟩
      (fun _ _ => hd u (by simp)) 1 (le_refl 1)
    exact ih (fun v hv => hd v (by simp [hv])) s1 this.1 this.2 _ e2

/-- **C111.** As delivered, and through any run without a signal to top off or to lock out the elements only, at most one
heat source of a built-in model without companions is on. -/
theorem C111_models (m : Libm) (pow : ℚ → ℚ → ℚ) (hp : PowPos pow) (grid : ℚ → ℚ → ℚ → Perf) (base : Sim n₀ k₀)
    (q : String × Preset) (hq : q ∈ Presets.table) (hc : ∀ i, (q.2.src i).cfg.companion = none)
    (s s' : Sim q.2.n q.2.k) (hs : q.2.initLegacy m pow grid base = .ok s) (fuel : ℕ) (us : List Sim.RunInput)
    (hd : ∀ u ∈ us, PlainSignal u.dr) (h : Sim.runNSteps m fuel s us = .ok s') (i j : Fin q.2.k)
    (hi : (s'.st i).isOn = true) (hj : (s'.st j).isOn = true) : i = j := by
  have hl := (C85_delivered m pow hp grid base q hq s hs).1
  have hv := table_priority q hq (Preset.companionless_iff.mpr hc)
  unfold Preset.priorityOk at hv
  simp only [Bool.or_eq_true, decide_eq_true_eq, List.all_eq_true, List.mem_finRange, true_implies] at hv
  rcases hv with hv | hv
  · exact Fin.ext (by omega)
  have hn : NoCompanions s := by
    refine ⟨fun x => ?_, fun x hx => ?_⟩
    · rw [hl.source x]
      show ((q.2.src x).source grid).companion = none
      rw [source_cfg]; exact hc x
    · rw [hl.source x] at hx ⊢
      have hx' : ((q.2.src x).source grid).isVIP = true := hx
      rw [source_cfg] at hx'
      show ∃ power, ((q.2.src x).source grid).kind = .resistance power
      have := hv x
      rw [show (q.2.src x).cfg.isVIP = true from hx'] at this
      simp only [Bool.not_true, Bool.false_eq_true, false_or] at this
      split at this
      · rename_i w e
        refine ⟨w, ?_⟩
        unfold SourceData.source
        rw [e]; exact e
      · cases this
  have ho : OneAtMost s := ⟨fun x y hx => (by rw [hl.off x] at hx; cases hx), fun x hx => (by rw [hl.off x] at hx; cases hx)⟩
  unfold Sim.runNSteps at h
  rw [bind_ok_iff] at h
  obtain ⟨r, e1, e2⟩ := h
  split at e2
  · cases e2
  · cases e2
    exact (runLoop_one_on m fuel us hd s hn ho _ r e1).alone i j hi hj

/-- Most models have no companions. -/
example : (Presets.table.filter fun q => q.2.companionless).length = 76 ∧ Presets.table.length = 108 := by
  decide +kernel

/-- One of them with two elements, after a large draw: one is on. -/
example : ("restankRealistic", Presets.restankRealistic) ∈ Presets.table ∧
    (∀ i, (Presets.restankRealistic.src i).cfg.companion = none) ∧
    ∃ s, Presets.restankRealistic.initLegacy sampleLibm coarsePow (fun _ _ _ => ⟨0, 0, 0⟩) sampleSim = .ok s ∧
    ∃ s', Sim.runNSteps sampleLibm 20 s [⟨10, 100, 20, 20, ⟨false, false, false, false⟩⟩] = .ok s' ∧
      1 < Presets.restankRealistic.k ∧ ∃ i, (s'.st i).isOn = true :=
  ⟨by unfold Presets.table; simp, by decide +kernel, by decide +kernel⟩

end HPWH
