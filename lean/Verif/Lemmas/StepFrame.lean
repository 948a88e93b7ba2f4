import Verif.Lemmas.OneStep
import Verif.Lemmas.Frame

/-! What a step never changes, whatever the settings. -/

namespace HPWH

variable {n k : ℕ}

/-- The parts of the state that heating leaves alone, with the heat sources in `locked` not run. -/
structure QuietInv (locked : Fin k → Prop) (s0 s : Sim n k) : Prop where
  rest : s = { s0 with toPlant := s.toPlant, st := s.st, isHeating := s.isHeating }
  same : Sim.noSetpoint < s0.setpoint → s0.toPlant.SameSettings s.toPlant
  quiet : ∀ i, locked i → (s.st i).runtime_min = (s0.st i).runtime_min ∧
    (s.st i).energyInput_kWh = (s0.st i).energyInput_kWh ∧
    (s.st i).energyOutput_kWh = (s0.st i).energyOutput_kWh

namespace QuietInv

variable {locked : Fin k → Prop} {s0 : Sim n k}

theorem init : QuietInv locked s0 s0 :=
  ⟨rfl, fun _ => ⟨rfl, rfl, rfl, rfl, rfl⟩, fun _ _ => ⟨rfl, rfl, rfl⟩⟩

theorem cfg {s : Sim n k} (h : QuietInv locked s0 s) : s.cfg = s0.cfg := by rw [h.rest]

theorem ctrl {s s' : Sim n k} (hc : CtrlEq s s') (h : QuietInv locked s0 s) :
    QuietInv locked s0 s' := by
  refine ⟨?_, fun hs => by rw [hc.plant]; exact h.same hs, fun i hi => ?_⟩
  · rw [hc.rest, h.rest]
  · rw [hc.runtime, hc.input, hc.output]; exact h.quiet i hi

theorem heat {m : Libm} {fuel : ℕ} {s s' : Sim n k} {j : Fin k} {amb minutes : ℚ}
    (hj : ¬ locked j) (inv : QuietInv locked s0 s)
    (h : s.addHeatParent m fuel j amb minutes = .ok s') : QuietInv locked s0 s' := by
  have hquiet : ∀ (st' : SourceState), ∀ i, locked i →
      ((Function.update s.st j st' i).runtime_min = (s0.st i).runtime_min ∧
      (Function.update s.st j st' i).energyInput_kWh = (s0.st i).energyInput_kWh ∧
      (Function.update s.st j st' i).energyOutput_kWh = (s0.st i).energyOutput_kWh) := by
    intro st' i hi
    have hij : i ≠ j := by rintro rfl; exact hj hi
    simp only [Function.update_of_ne hij]
    exact inv.quiet i hi
  rcases addHeatParent_cases h with h | ⟨c, s2, -, -, -, -, h2, e⟩
  · obtain ⟨h1, h2⟩ := addHeat_spec h
    obtain ⟨f1, -⟩ := addHeatKind_frame h1
    refine ⟨?_, fun hs => (inv.same hs).trans f1, ?_⟩
    · rw [h2, inv.rest]
    · rw [h2]; exact hquiet _
  · obtain ⟨h1, h2⟩ := addHeat_spec h2
    obtain ⟨f1, -⟩ := addHeatKind_frame h1
    rcases e with ⟨hs, e⟩ | ⟨hs, e⟩
    · refine ⟨?_, fun hs' => (inv.same hs').trans ?_, ?_⟩
      · rw [e, h2, inv.rest]
      · obtain ⟨g1, g2, g3, g4, g5⟩ := f1
        rw [e]
        exact ⟨g1, rfl, g3, g4, g5⟩
      · rw [e, h2]; exact hquiet _
    · refine ⟨?_, fun hs' => ?_, ?_⟩
      · rw [e, h2, inv.rest]
      · have := (inv.same hs').2
        exact absurd (this.1 ▸ hs') hs
      · rw [e, h2]; exact hquiet _

theorem heatInduction (m : Libm) (fuel : ℕ) (dr : DR) (amb : ℚ) (s0 : Sim n k) :
    HeatInduction m fuel dr amb s0.cfg (fun _ => True)
      (QuietInv (fun i => shouldDRLockOut (s0.cfg.src i).kind dr = true) s0) (fun _ => True) where
  fixed _ inv := inv.cfg
  ctrl _ _ hc inv := inv.ctrl hc
  heat s s' j minutes _ inv _ hdr h := ⟨inv.heat (by simp [hdr]) h, fun _ => trivial⟩
  back _ _ _ _ _ _ := trivial

end QuietInv

/-- What the heating of a step leaves alone. -/
theorem control_frame {m : Libm} {fuel : ℕ} {dr : DR} {amb : ℚ} {s s' : Sim n k}
    (h : Sim.control m fuel dr amb s = .ok s') :
    QuietInv (fun i => shouldDRLockOut (s.cfg.src i).kind dr = true) s s' :=
  (QuietInv.heatInduction m fuel dr amb s).control .init trivial h

end HPWH
