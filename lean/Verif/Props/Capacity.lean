import Verif.Props.Units
import Mathlib.Data.List.Forall2
import Mathlib.Algebra.BigOperators.Group.List.Basic

/-! # Capacities (C48, C49) -/

namespace HPWH

open Spec
open _root_.HPWH.Units

variable {n k : ℕ}

/-! ## C48 -/

/-- The performance with the input power scaled by `r`: the same outcome, with the same COP and `r` times
the heat output. -/
theorem getPerformance_scaled (c : CondCfg) (r flow setpoint air water : ℚ) :
    ∀ perf, c.getPerformance flow setpoint air water = .ok perf →
      ∃ perf', CondCfg.getPerformance { c with
          inputPowerScale := c.inputPowerScale * r, copScale := c.copScale * 1 }
          flow setpoint air water = .ok perf' ∧
        perf'.cop = perf.cop ∧ perf'.outputPower_W = r * perf.outputPower_W := by
  intro perf h
  unfold CondCfg.getPerformance at h ⊢
  by_cases hd : c.doDefrost = true
  · simp only [hd, ↓reduceIte, bind_assoc, pure_bind, mul_one] at h ⊢
    obtain ⟨f, hf, h⟩ := (bind_ok_iff _ _ _).mp h
    rw [hf]
    cases h
    refine ⟨_, rfl, rfl, ?_⟩
    simp only []
    ring
  · simp only [hd, Bool.false_eq_true, ↓reduceIte, pure_bind, mul_one] at h ⊢
    cases h
    refine ⟨_, rfl, rfl, ?_⟩
    simp only []
    ring

/-- The setpoint is one the simulator accepts. -/
def Spec.Settled (s : Sim n k) : Prop := SetpointAllowed s s.setpoint

theorem newSetpointPossible_setpoint (s : Sim n k) (x y : ℚ) (h : s.cfg.setpointFixed = false) :
    Sim.newSetpointPossible { s with setpoint := y } x = s.newSetpointPossible x := by
  unfold Sim.newSetpointPossible
  simp [h]

theorem capacityPerf_readonly {s s' : Sim n k} (hs : s.newSetpointPossible s.setpoint = true)
    {j : Fin k} {c : CondCfg} {air inlet out : ℚ} {perf : Perf}
    (h : s.capacityPerf j c air inlet out = .ok (perf, s')) : s' = s := by
  unfold Sim.capacityPerf at h
  by_cases hc : c.configuration = .external
  · simp only [hc, ↓reduceIte] at h
    obtain ⟨p, -, h⟩ := (bind_ok_iff _ _ _).mp h
    cases h
    by_cases hp : s.newSetpointPossible out = true
    · simp only [hp, ↓reduceIte]
      by_cases hf : s.cfg.setpointFixed = true
      · have : out = s.setpoint := by
          unfold Sim.newSetpointPossible at hp
          simpa [hf] using hp
        subst this
        simp
      · have hf' : s.cfg.setpointFixed = false := by simpa using hf
        rw [newSetpointPossible_setpoint s _ _ hf', hs]
        simp
    · simp [hp, hs]
  · simp only [hc, ↓reduceIte] at h
    obtain ⟨p, -, h⟩ := (bind_ok_iff _ _ _).mp h
    cases h
    rfl

/-- The setpoint the capacity is evaluated at. -/
def ratingSetpoint (s : Sim n k) (c : CondCfg) (out : ℚ) : ℚ :=
  if c.configuration = .external ∧ s.newSetpointPossible out = true then out else s.setpoint

/-- The water temperature the capacity is evaluated at. -/
def ratingWater (c : CondCfg) (inlet out : ℚ) : ℚ :=
  if c.configuration = .external ∧ c.isMultipass = true then (out + inlet) / 2 else inlet

theorem capacityPerf_iff (s : Sim n k) (j : Fin k) (c : CondCfg) (air inlet out : ℚ) (perf : Perf) :
    (∃ s2, s.capacityPerf j c air inlet out = .ok (perf, s2)) ↔
      c.getPerformance (s.cfg.src j).airflowFreedom (ratingSetpoint s c out) air
        (ratingWater c inlet out) = .ok perf := by
  unfold Sim.capacityPerf ratingSetpoint ratingWater
  by_cases hc : c.configuration = .external
  · simp only [hc, ↓reduceIte, true_and]
    have e : (if s.newSetpointPossible out = true then { s with setpoint := out } else s).setpoint =
        if s.newSetpointPossible out = true then out else s.setpoint := by
      split <;> rfl
    rw [e]
    constructor
    · rintro ⟨s2, h⟩
      obtain ⟨p, h1, h⟩ := (bind_ok_iff _ _ _).mp h
      cases h
      exact h1
    · intro h
      rw [h]
      exact ⟨_, rfl⟩
  · simp only [hc, ↓reduceIte, false_and]
    constructor
    · rintro ⟨s2, h⟩
      obtain ⟨p, h1, h⟩ := (bind_ok_iff _ _ _).mp h
      cases h
      exact h1
    · intro h
      rw [h]
      exact ⟨_, rfl⟩

theorem getCompressorCapacity_ok {s s' : Sim n k} {air inlet out x : ℚ} {pwr temp : UnitTag}
    (h : s.getCompressorCapacity air inlet out pwr temp = .ok (x, s')) :
    ∃ j c a b d perf, s.compressor = .ok (j, c) ∧ tempToC temp air = .ok a ∧
      tempToC temp inlet = .ok b ∧ tempToC temp out = .ok d ∧
      ¬ (a + tolT < (s.cfg.src j).minT ∨ a > (s.cfg.src j).maxT + tolT) ∧
      ¬ d > c.maxSetpoint - c.hotSideOffset + tolT ∧
      s.capacityPerf j c a b d = .ok (perf, s') ∧ Sim.powerFromW pwr perf.outputPower_W = .ok x := by
  unfold Sim.getCompressorCapacity at h
  obtain ⟨⟨j, c⟩, h1, h⟩ := (bind_ok_iff _ _ _).mp h
  obtain ⟨a, h2, h⟩ := (bind_ok_iff _ _ _).mp h
  obtain ⟨b, h3, h⟩ := (bind_ok_iff _ _ _).mp h
  obtain ⟨d, h4, h⟩ := (bind_ok_iff _ _ _).mp h
  obtain ⟨h5, h⟩ := ite_error_ok h
  obtain ⟨h6, h⟩ := ite_error_ok h
  obtain ⟨⟨perf, s2⟩, h7, h⟩ := (bind_ok_iff _ _ _).mp h
  obtain ⟨y, h8, h⟩ := (bind_ok_iff _ _ _).mp h
  cases h
  exact ⟨j, c, a, b, d, perf, h1, h2, h3, h4, h5, h6, h7, h8⟩

/-- C48: asking for the capacity leaves the simulator as it was. -/
theorem C48_query_readonly (s s' : Sim n k) (hk : Known s) (hs : Settled s) (air inlet out x : ℚ)
    (pwr temp : UnitTag) (h : s.getCompressorCapacity air inlet out pwr temp = .ok (x, s')) :
    s' = s := by
  obtain ⟨j, c, a, b, d, perf, -, -, -, -, -, -, h7, -⟩ := getCompressorCapacity_ok h
  exact capacityPerf_readonly ((newSetpointPossible_iff hk _).mpr hs) h7

theorem powerFromW_linear {u : UnitTag} {x y : ℚ} (r : ℚ) (h : Sim.powerFromW u x = .ok y) :
    Sim.powerFromW u (r * x) = .ok (r * y) := by
  cases u <;> simp [Sim.powerFromW] at h ⊢ <;> subst h <;> simp only [W_TO_KW, W_TO_BTUperH] <;> ring

theorem compressor_ok {s : Sim n k} {j : Fin k} {c : CondCfg} (h : s.compressor = .ok (j, c)) :
    s.cfg.compressorIndex = some j ∧ (s.cfg.src j).kind = .condenser c := by
  unfold Sim.compressor at h
  cases hi : s.cfg.compressorIndex with
  | none => simp [hi] at h
  | some i =>
    simp only [hi] at h
    cases hk : (s.cfg.src i).kind with
    | resistance p => simp [hk] at h
    | condenser c' =>
      simp only [hk, Except.ok.injEq, Prod.mk.injEq] at h
      obtain ⟨rfl, rfl⟩ := h
      exact ⟨rfl, hk⟩

/-- The simulator with the heat pump `c` at `j` scaled by `r`. -/
def scaledPump (s : Sim n k) (j : Fin k) (c : CondCfg) (r : ℚ) : Sim n k :=
  s.setSrc j { s.cfg.src j with
    kind := .condenser { c with
      inputPowerScale := c.inputPowerScale * r, copScale := c.copScale * 1 } }

theorem scaledPump_possible {s : Sim n k} {j : Fin k} {c : CondCfg} (h : s.compressor = .ok (j, c))
    (r x : ℚ) : (scaledPump s j c r).newSetpointPossible x = s.newSetpointPossible x := by
  obtain ⟨h1, h2⟩ := compressor_ok h
  unfold Sim.newSetpointPossible scaledPump Sim.setSrc
  simp only [h1, h2, Function.update_self]

/-- C48: after a request for a capacity that succeeds, the capacity reported at the same conditions and
in the same units is the one requested. The request has scaled the main heat pump: its heat output by
some positive factor, at all conditions, leaving its COP as it was, and nothing else has changed. -/
theorem C48_capacity (s s' : Sim n k) (hk : Known s) (hs : Settled s) (request air inlet out : ℚ)
    (pwr temp : UnitTag)
    (h : s.setCompressorOutputCapacity request air inlet out pwr temp = .ok s') :
    s'.getCompressorCapacity air inlet out pwr temp = .ok (request, s') ∧
    ∃ j c r, MainHeatPump s.cfg.src j c ∧ 0 < r ∧ s.cfg.canScale = true ∧
      ∃ c', s' = s.setSrc j { s.cfg.src j with kind := .condenser c' } ∧
      (∃ x, c' = { c with inputPowerScale := x }) ∧
      ∀ flow setpoint air water perf, c.getPerformance flow setpoint air water = .ok perf →
        ∃ perf', c'.getPerformance flow setpoint air water = .ok perf' ∧ perf'.cop = perf.cop ∧
          perf'.outputPower_W = r * perf.outputPower_W := by
  have hs' := (newSetpointPossible_iff hk _).mpr hs
  unfold Sim.setCompressorOutputCapacity at h
  obtain ⟨⟨old, s1⟩, h1, g⟩ := (bind_ok_iff _ _ _).mp h
  clear h
  have e1 := C48_query_readonly s s1 hk hs air inlet out old pwr temp h1
  subst e1
  obtain ⟨h0, h⟩ := ite_error_ok g
  unfold Sim.setScale at h
  obtain ⟨hcan, h⟩ := ite_error_ok h
  obtain ⟨⟨j, c⟩, hc, h⟩ := (bind_ok_iff _ _ _).mp h
  obtain ⟨hpos, h⟩ := ite_error_ok h
  have hr : 0 < request / old := not_le.mp fun hle => hpos (Or.inl hle)
  replace h : s' = scaledPump s1 j c (request / old) := by cases h; rfl
  obtain ⟨g1, g2⟩ := compressor_ok hc
  refine ⟨?_, j, c, request / old, ?_, hr, by simpa using hcan, _, h, ⟨_, by rw [mul_one]⟩,
    fun flow sp ai wa perf hp => getPerformance_scaled c _ flow sp ai wa perf hp⟩
  · obtain ⟨j', c', a, b, d, perf, f1, f2, f3, f4, f5, f6, f7, f8⟩ := getCompressorCapacity_ok h1
    cases hc.symm.trans f1
    obtain ⟨perf', p1, -, p3⟩ := getPerformance_scaled c (request / old) _ _ _ _ perf
      ((capacityPerf_iff s1 j c a b d perf).mp ⟨_, f7⟩)
    set c1 : CondCfg := { c with
      inputPowerScale := c.inputPowerScale * (request / old), copScale := c.copScale * 1 } with hc1
    have hsrc : s'.cfg.src j = { s1.cfg.src j with kind := .condenser c1 } := by
      rw [h]; simp only [scaledPump, Sim.setSrc, Function.update_self, ← hc1]
    have hcomp : s'.compressor = .ok (j, c1) := by
      have hi : s'.cfg.compressorIndex = some j := by rw [h]; exact g1
      unfold Sim.compressor
      simp only [hi, hsrc]
    have hrate : ratingSetpoint s' c1 d = ratingSetpoint s1 c d := by
      unfold ratingSetpoint
      rw [h, scaledPump_possible hc]
      rfl
    obtain ⟨s2, hs2⟩ := (capacityPerf_iff s' j c1 a b d perf').mpr (by
      rw [hrate, hsrc]; exact p1)
    have hpow : Sim.powerFromW pwr perf'.outputPower_W = .ok request := by
      rw [p3]
      have := powerFromW_linear (request / old) f8
      rwa [div_mul_cancel₀ _ h0] at this
    have hset : s'.newSetpointPossible s'.setpoint = true := by
      rw [h, scaledPump_possible hc]
      exact hs'
    have := capacityPerf_readonly hset hs2
    subst this
    unfold Sim.getCompressorCapacity
    simp only [hcomp, f2, f3, f4, bind, Except.bind, hsrc, f5, ↓reduceIte]
    rw [if_neg (by exact f6), hs2]
    simp only [hpow]
    rfl
  · obtain ⟨c', hm⟩ := (hk.heatPump j).mp g1
    have : (s1.cfg.src j).kind = .condenser c' := hm.1
    cases g2.symm.trans this
    exact hm

theorem sampleSim_settled : Settled sampleSim :=
  (newSetpointPossible_iff sampleSim_known _).mp (by decide +kernel)

example : ∃ s', sampleSim.setCompressorOutputCapacity 8000 68 50 125 .BTUperHr .F = .ok s' ∧
    ∃ r, s'.getCompressorCapacity 68 50 125 .BTUperHr .F = .ok r ∧ r.1 = 8000 := by decide +kernel

theorem sampleCentral_settled : Settled sampleCentral :=
  (newSetpointPossible_iff sampleCentral_known _).mp (by decide +kernel)

example : ∃ s', sampleCentral.setCompressorOutputCapacity 20 20 10 50 .KW .C = .ok s' ∧
    ∃ r, s'.getCompressorCapacity 20 10 50 .KW .C = .ok r ∧ r.1 = 20 := by decide +kernel

end HPWH
