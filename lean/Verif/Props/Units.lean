import Verif.Props.Ports
import Mathlib.Tactic.NormNum
import Mathlib.Data.List.Forall2

/-! # Units (C42) -/

namespace HPWH

open Spec
open _root_.HPWH.Units

variable {n k : ℕ}

/-- `f` and `g` undo each other. -/
def Spec.Inverse (f g : ℚ → ℚ) : Prop := (∀ x, g (f x) = x) ∧ ∀ x, f (g x) = x

/-- C42: every conversion and its reverse undo each other. -/
theorem C42_inverse_pairs :
    Inverse dF_TO_dC dC_TO_dF ∧ Inverse F_TO_C C_TO_F ∧ Inverse K_TO_C C_TO_K ∧
    Inverse K_TO_F F_TO_K ∧ Inverse KWH_TO_BTU BTU_TO_KWH ∧ Inverse KWH_TO_KJ KJ_TO_KWH ∧
    Inverse BTUperH_TO_KW KW_TO_BTUperH ∧ Inverse BTUperH_TO_W W_TO_BTUperH ∧
    Inverse KW_TO_W W_TO_KW ∧ Inverse GAL_TO_L L_TO_GAL ∧ Inverse GPM_TO_LPS LPS_TO_GPM ∧
    Inverse FT_TO_M M_TO_FT ∧ Inverse FT2_TO_M2 M2_TO_FT2 := by
  simp only [Inverse, dF_TO_dC, dC_TO_dF, F_TO_C, C_TO_F, K_TO_C, C_TO_K, K_TO_F, F_TO_K, KWH_TO_BTU,
    BTU_TO_KWH, KWH_TO_KJ, KJ_TO_KWH, BTUperH_TO_KW, KW_TO_BTUperH, BTUperH_TO_W, W_TO_BTUperH,
    KW_TO_W, W_TO_KW, GAL_TO_L, L_TO_GAL, GPM_TO_LPS, LPS_TO_GPM, FT_TO_M, M_TO_FT, FT2_TO_M2,
    M2_TO_FT2, FperC, offsetF, absoluteZeroC, BTUperKWH, secPerHr, secPerMin, minPerHr, LPerGal,
    ftPerM]
  refine ⟨⟨?_, ?_⟩, ⟨?_, ?_⟩, ⟨?_, ?_⟩, ⟨?_, ?_⟩, ⟨?_, ?_⟩, ⟨?_, ?_⟩, ⟨?_, ?_⟩, ⟨?_, ?_⟩, ⟨?_, ?_⟩,
    ⟨?_, ?_⟩, ⟨?_, ?_⟩, ⟨?_, ?_⟩, ⟨?_, ?_⟩⟩ <;> intro x <;> ring

/-- C42: the conversions agree with each other where they can be chained, and have the right fixed
points: water freezes at 32 °F and boils at 212 °F, 1 kWh is 3600 kJ. A difference of temperatures is
converted by the conversion of differences. -/
theorem C42_anchors :
    F_TO_C 32 = 0 ∧ F_TO_C 212 = 100 ∧ C_TO_K (-27315 / 100) = 0 ∧ KWH_TO_KJ 1 = 3600 ∧
    KW_TO_W 1 = 1000 ∧ GPM_TO_LPS 60 = GAL_TO_L 1 ∧ MIN_TO_HR 60 = 1 ∧ MIN_TO_SEC 1 = 60 ∧
    (∀ x y, F_TO_C x - F_TO_C y = dF_TO_dC (x - y)) ∧
    (∀ x y, C_TO_F x - C_TO_F y = dC_TO_dF (x - y)) ∧
    (∀ x, BTU_TO_KJ x = KWH_TO_KJ (BTU_TO_KWH x)) ∧
    (∀ x, BTUperH_TO_W x = KW_TO_W (BTUperH_TO_KW x)) ∧
    (∀ h m, MIN_TO_HR (HM_TO_MIN h m) = h + MIN_TO_HR m) := by
  simp only [F_TO_C, C_TO_K, C_TO_F, KWH_TO_KJ, KW_TO_W, GPM_TO_LPS, GAL_TO_L, MIN_TO_HR, MIN_TO_SEC,
    dF_TO_dC, dC_TO_dF, BTU_TO_KJ, BTU_TO_KWH, BTUperH_TO_W, BTUperH_TO_KW, HM_TO_MIN, FperC, offsetF,
    absoluteZeroC, secPerHr, secPerMin, minPerHr, BTUperKWH, LPerGal]
  refine ⟨by norm_num, by norm_num, by norm_num, by norm_num, by norm_num, by norm_num, by norm_num,
    by norm_num, ?_, ?_, ?_, ?_, ?_⟩ <;> intros <;> ring

theorem tempFromTo {u : UnitTag} {x c : ℚ} (h : tempToC u x = .ok c) : tempFromC u c = .ok x :=
  tempFromC_ok.mpr (tempToC_ok.mp h)

theorem uaFromTo {u : UnitTag} {x c : ℚ} (h : uaToMetric u x = .ok c) : uaFromMetric u c = .ok x := by
  cases u <;> simp [uaToMetric] at h <;> subst h <;>
    simp only [uaFromMetric, UAf_TO_UAc, Except.ok.injEq]
  ring

/-- C42: what is written with a unit is read back with the same unit unchanged. Part of the claim:
setpoint, heat loss coefficients, tank size. (Resistance and compressor capacity: C49, C48.) Missing
because they are false: the differences below. -/
theorem C42_tagged_partial (pow : ℚ → ℚ → ℚ) (hp : PowPos pow) (s s' : Sim n k) (u : UnitTag) (x : ℚ)
    (force : Bool) :
    (s.setSetpointIn u x = .ok s' → s'.getSetpoint u = .ok x) ∧
    (s.setUA u x = .ok s' → s'.getUA u = .ok x) ∧
    (s.setFittingsUA u x = .ok s' → s'.getFittingsUA u = .ok x) ∧
    (s.setTankSize pow u x force = .ok s' → s'.getTankSize u = .ok x) := by
  refine ⟨fun h => ?_, fun h => ?_, fun h => ?_, fun h => ?_⟩
  · obtain ⟨c, h1, h⟩ := (bind_ok_iff _ _ _).mp h
    unfold Sim.setSetpoint at h
    split at h
    · cases h; exact tempFromTo h1
    · cases h
  · obtain ⟨c, h1, h⟩ := (bind_ok_iff _ _ _).mp h
    cases h; exact uaFromTo h1
  · obtain ⟨c, h1, h⟩ := (bind_ok_iff _ _ _).mp h
    cases h; exact uaFromTo h1
  · obtain ⟨h1, -⟩ := C41_set_size pow hp s s' u x force h
    unfold Sim.getTankSize
    cases u <;> simp [litres] at h1
    · rw [← h1]; simp [volumeFromL, L_TO_GAL, LPerGal]
    · rw [← h1]; rfl

example : (∃ s', sampleSim.setUA .BTUperHrF 5 = .ok s' ∧ s'.getUA .BTUperHrF = .ok 5 ∧
    s'.getUA .kJperHrC ≠ .ok 5) ∧
    (∃ s', sampleSim.setTankSize samplePow .GAL 50 false = .ok s' ∧ s'.getTankSize .GAL = .ok 50) := by
  decide +kernel

/-- C42: the same quantity asked for in two units is the same quantity. -/
theorem C42_units_agree (pow : ℚ → ℚ → ℚ) (s : Sim n k) :
    (∀ c f, s.getSetpoint .C = .ok c → s.getSetpoint .F = .ok f → c = (f - 32) * 5 / 9) ∧
    (∀ l g, s.getTankSize .L = .ok l → s.getTankSize .GAL = .ok g → l = g * (378541 / 100000)) ∧
    (∀ a b, s.getTankSurfaceArea pow .M2 = .ok a → s.getTankSurfaceArea pow .FT2 = .ok b →
      b = a * (32808 / 10000) ^ 2) ∧
    (∀ i c f, s.getTankNodeTemp i .C = .ok c → s.getTankNodeTemp i .F = .ok f →
      c = (f - 32) * 5 / 9) := by
  refine ⟨?_, ?_, ?_, ?_⟩
  · intro c f h1 h2
    simp only [Sim.getSetpoint, tempFromC, Except.ok.injEq] at h1 h2
    subst h1 h2
    simp only [C_TO_F, FperC, offsetF]; ring
  · intro c f h1 h2
    simp only [Sim.getTankSize, volumeFromL, Except.ok.injEq] at h1 h2
    subst h1 h2
    simp only [L_TO_GAL, LPerGal]; ring
  · intro c f h1 h2
    simp only [Sim.getTankSurfaceArea, Except.ok.injEq] at h1 h2
    subst h1 h2
    simp only [M2_TO_FT2, M_TO_FT, ftPerM]; ring
  · intro i c f h1 h2
    unfold Sim.getTankNodeTemp at h1 h2
    by_cases hi : i < n + 1
    · rw [dif_pos hi] at h1 h2
      simp only [tempFromC, Except.ok.injEq] at h1 h2
      rw [← h1, ← h2]
      simp only [C_TO_F, FperC, offsetF]; ring
    · rw [dif_neg hi] at h1; cases h1

/-- Finding: a largest temperature depression given in °F is converted as a temperature. Asking for a
depression of at most 9 °F (5 °C) stores a negative limit. -/
theorem C42_depression_difference_wrong (s : Sim n k) :
    ∃ s', s.setMaxTempDepression .F 9 = .ok s' ∧ s'.cfg.maxDepression = -115 / 9 ∧
      dF_TO_dC 9 = 5 := by
  refine ⟨_, rfl, ?_, ?_⟩
  · simp only [F_TO_C, FperC, offsetF]; norm_num
  · norm_num [dF_TO_dC, FperC]

/-- Finding: the radius in feet is smaller than the radius in metres. -/
theorem C42_radius_in_feet_wrong (pow : ℚ → ℚ → ℚ) (hp : PowPos pow) (s : Sim n k)
    (hV : 0 < s.tank.volume_L) : s.getTankRadius pow .FT < s.getTankRadius pow .M := by
  have := tankRadius_pos hp hV
  simp only [Sim.getTankRadius, FT_TO_M, ftPerM]
  rw [div_lt_iff₀ (by norm_num)]
  linarith

/-- A shut-off of the heat pump when hot water enters it, 10 °C below the setpoint. -/
def sampleEntering : Logic := ⟨.temp false .bottom, 10, .greater, true, false, "high temp"⟩

/-- Finding: a distance below the setpoint in °F is converted as a temperature, so 30 °F below the
setpoint (16.7 °C, more than the least allowed 8.3 °C) is rejected, and 80 °F below it (44.4 °C) becomes
26.7 °C. -/
theorem C42_entering_water_difference_wrong (s : Sim n k) (j : Fin k)
    (h : (s.cfg.src j).shutOff = [sampleEntering]) :
    dF_TO_dC 30 = 50 / 3 ∧ Sim.minSinglePassLift = 25 / 3 ∧
    s.setEnteringWaterHighTempShutOff .F 30 false j = .error .error ∧
    ∃ s', s.setEnteringWaterHighTempShutOff .F 80 false j = .ok s' ∧
      (s'.cfg.src j).shutOff = [{ sampleEntering with decisionPoint := 80 / 3 }] := by
  have hj : 0 ≤ ((j : ℕ) : ℤ) ∧ ((j : ℕ) : ℤ) < k := ⟨by omega, by omega⟩
  have hjj : (⟨((j : ℕ) : ℤ).toNat, by omega⟩ : Fin k) = j := by
    apply Fin.ext; simp
  refine ⟨by norm_num [dF_TO_dC, FperC], by norm_num [Sim.minSinglePassLift, dF_TO_dC, FperC], ?_, ?_⟩
  · unfold Sim.setEnteringWaterHighTempShutOff
    rw [dif_pos hj]
    simp only [hjj, h]
    norm_num [sampleEntering, tempToC, bind, Except.bind, F_TO_C, FperC, offsetF, Sim.minSinglePassLift,
      dF_TO_dC]
  · unfold Sim.setEnteringWaterHighTempShutOff
    rw [dif_pos hj]
    simp only [hjj, h]
    norm_num [sampleEntering, tempToC, bind, Except.bind, F_TO_C, FperC, offsetF, Sim.minSinglePassLift,
      dF_TO_dC, pure, Except.pure, Sim.setSrc, Sim.setEnteringWater]

end HPWH
