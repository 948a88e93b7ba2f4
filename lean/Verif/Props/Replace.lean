import Verif.Model.Replace
import Verif.Spec.Replace
import Verif.Props.Capacity
import Verif.Props.Poly

/-! # C102: replacing the performance of the heat pump -/

namespace HPWH

open Spec

variable {n k : ℕ}

theorem firstCondenser_found {s : Sim n k} {i : Fin k} (h : s.firstCondenser = some i) :
    (∃ c, (s.cfg.src i).kind = .condenser c) ∧ ∀ j < i, ∀ c, (s.cfg.src j).kind ≠ .condenser c := by
  unfold Sim.firstCondenser at h
  obtain ⟨h1, as, bs, e, h2⟩ := List.find?_eq_some_iff_append.mp h
  refine ⟨?_, fun j hj c hc => ?_⟩
  · cases hk : (s.cfg.src i).kind with
    | condenser c => exact ⟨c, rfl⟩
    | resistance w => rw [hk] at h1; cases h1
  · have hm : j ∈ as ++ i :: bs := by rw [← e]; exact List.mem_finRange j
    have hs : (as ++ i :: bs).Pairwise (· < ·) := by rw [← e]; exact List.pairwise_lt_finRange k
    rcases List.mem_append.mp hm with hm | hm
    · have := h2 j hm
      rw [hc] at this
      cases this
    · rcases List.mem_cons.mp hm with rfl | hm
      · exact lt_irrefl _ hj
      · exact absurd ((List.pairwise_cons.mp (List.pairwise_append.mp hs).2.1).1 j hm) (not_lt.mpr hj.le)

theorem firstCondenser_absent {s : Sim n k} : s.firstCondenser = none ↔ ∀ i c, (s.cfg.src i).kind ≠ .condenser c := by
  unfold Sim.firstCondenser
  rw [List.find?_eq_none]
  constructor
  · intro h i c hc
    have := h i (List.mem_finRange i)
    rw [hc] at this
    exact this rfl
  · intro h i _
    cases hk : (s.cfg.src i).kind with
    | condenser c => exact absurd hk (h i c)
    | resistance w => simp

theorem firstCondenser_congr {s t : Sim n k} (h : ∀ i, (t.cfg.src i).kind.isCompressor = (s.cfg.src i).kind.isCompressor) :
    t.firstCondenser = s.firstCondenser := by
  unfold Sim.firstCondenser
  congr 1
  funext i
  have := h i
  cases h1 : (s.cfg.src i).kind <;> cases h2 : (t.cfg.src i).kind <;> rw [h1, h2] at this
  · cases this
  · cases this

theorem make_some {s : Sim n k} {i : Fin k} {c : CondCfg} (hi : s.firstCondenser = some i)
    (hc : (s.cfg.src i).kind = .condenser c) (d : PerfData) :
    s.makeCondenserPerformance d = { s with cfg := { s.cfg with src := Function.update s.cfg.src i { s.cfg.src i with
          kind := .condenser { c with evaluate := d.make (fun _ _ _ => ⟨0, 0, 0⟩) c } } } } := by
  unfold Sim.makeCondenserPerformance
  simp only [hi, hc]

/-- **C102.** Replacing performance changes nothing but the performance of the first heat pump; without a heat pump it
changes nothing (and does not complain). -/
theorem C102_only_performance (s : Sim n k) (d : PerfData) :
    ((∀ i c, (s.cfg.src i).kind ≠ .condenser c) → s.makeCondenserPerformance d = s) ∧
    ∀ i c, (s.cfg.src i).kind = .condenser c → (∀ j < i, ∀ c, (s.cfg.src j).kind ≠ .condenser c) →
      DifferIn i s (s.makeCondenserPerformance d) := by
  constructor
  · intro h
    unfold Sim.makeCondenserPerformance
    rw [firstCondenser_absent.mpr h]
  · intro i c hc hfirst
    have hi : s.firstCondenser = some i := by
      cases h : s.firstCondenser with
      | none => exact absurd hc (firstCondenser_absent.mp h i c)
      | some j =>
        obtain ⟨⟨c', h1⟩, h2⟩ := firstCondenser_found h
        rcases lt_trichotomy i j with h3 | h3 | h3
        · exact absurd hc (h2 i h3 c)
        · rw [h3]
        · exact absurd h1 (hfirst j h3 c')
    rw [make_some hi hc]
    exact ⟨rfl, fun j hj => Function.update_of_ne hj _ _, .inr ⟨c, _, hc, Function.update_self _ _ _⟩⟩

/-- **C102.** What was there before does not matter: if two simulators differ at most in the performance of their first
heat pump, they are the same once both are given the same performance. -/
theorem C102_forgets (s t : Sim n k) (i : Fin k) (hi : ∀ j < i, ∀ c, (s.cfg.src j).kind ≠ .condenser c)
    (h : DifferIn i s t) (hc : ∃ c, (s.cfg.src i).kind = .condenser c) (d : PerfData) :
    t.makeCondenserPerformance d = s.makeCondenserPerformance d := by
  obtain ⟨c, hc⟩ := hc
  have hs : s.firstCondenser = some i := by
    cases h : s.firstCondenser with
    | none => exact absurd hc (firstCondenser_absent.mp h i c)
    | some j =>
      obtain ⟨⟨c', h1⟩, h2⟩ := firstCondenser_found h
      rcases lt_trichotomy i j with h3 | h3 | h3
      · exact absurd hc (h2 i h3 c)
      · rw [h3]
      · exact absurd h1 (hi j h3 c')
  have ht : t.firstCondenser = some i := by
    rw [← hs]
    refine firstCondenser_congr fun j => ?_
    by_cases hj : j = i
    · subst hj
      rcases h.source with e | ⟨c', f, -, e⟩
      · rw [e]
      · rw [e, hc]; rfl
    · rw [h.others j hj]
  have hsrc : ∀ x, Function.update t.cfg.src i x = Function.update s.cfg.src i x := fun x => by
    funext j
    by_cases hj : j = i
    · subst hj; simp
    · rw [Function.update_of_ne hj, Function.update_of_ne hj, h.others j hj]
  rcases h.source with e | ⟨c', f, e1, e⟩
  · rw [make_some hs hc, make_some ht (by rw [e]; exact hc), hsrc, e, h.rest]
  · rw [hc] at e1
    obtain rfl := SourceKind.condenser.inj e1
    rw [make_some hs hc, make_some (c := { c with evaluate := f }) ht (by rw [e]), hsrc, e, h.rest]
    have : ∀ g, d.make g { c with evaluate := f } = d.make g c := fun g => by cases d <;> rfl
    rw [this]

/-- **C102.** So of several replacements the last one counts. -/
theorem C102_last_counts (s : Sim n k) (d d' : PerfData) :
    (s.makeCondenserPerformance d).makeCondenserPerformance d' = s.makeCondenserPerformance d' := by
  by_cases h : ∀ i c, (s.cfg.src i).kind ≠ .condenser c
  · rw [(C102_only_performance s d).1 h]
  · cases hf : s.firstCondenser with
    | none => exact absurd (firstCondenser_absent.mp hf) h
    | some i =>
      obtain ⟨⟨c, hc⟩, hlt⟩ := firstCondenser_found hf
      exact C102_forgets s _ i hlt ((C102_only_performance s d).2 i c hc hlt) ⟨c, hc⟩ d'

/-- **C102.** The heat pump then performs as the polynomials say: the input and the COP they give at the temperatures of the
air and of the water at its inlet, each times its scale, for a heat pump without defrosting whose air flow is not
restricted. -/
theorem C102_performs (s : Sim n k) (i : Fin k) (c : CondCfg) (hc : (s.cfg.src i).kind = .condenser c)
    (hi : ∀ j < i, ∀ c, (s.cfg.src j).kind ≠ .condenser c) (hd : c.doDefrost = false) (hr : c.resDefrostPower_kW = 0)
    (setpoint air water : ℚ) (d : PerfData) :
    ∃ c', ((s.makeCondenserPerformance d).cfg.src i).kind = .condenser c' ∧
      (∀ ps r, d = .polys ps → ps.evaluate air (water + c.coldSideOffset) = .ok r →
        c'.getPerformance 1 setpoint air water = .ok ⟨r.inputPower_W * c.inputPowerScale,
          r.cop * c.copScale * (r.inputPower_W * c.inputPowerScale), r.cop * c.copScale⟩) ∧
      (∀ p r, d = .singlePass p → p.singlePass setpoint c.hotSideOffset air (water + c.coldSideOffset) = .ok r →
        c'.getPerformance 1 setpoint air water = .ok ⟨r.inputPower_W * c.inputPowerScale,
          r.cop * c.copScale * (r.inputPower_W * c.inputPowerScale), r.cop * c.copScale⟩) ∧
      (∀ p r, d = .multiPass p → p.multiPass air (water + c.coldSideOffset) = .ok r →
        c'.getPerformance 1 setpoint air water = .ok ⟨r.inputPower_W * c.inputPowerScale,
          r.cop * c.copScale * (r.inputPower_W * c.inputPowerScale), r.cop * c.copScale⟩) := by
  have hs : s.firstCondenser = some i := by
    cases h : s.firstCondenser with
    | none => exact absurd hc (firstCondenser_absent.mp h i c)
    | some j =>
      obtain ⟨⟨c', h1⟩, h2⟩ := firstCondenser_found h
      rcases lt_trichotomy i j with h3 | h3 | h3
      · exact absurd hc (h2 i h3 c)
      · rw [h3]
      · exact absurd h1 (hi j h3 c')
  refine ⟨{ c with evaluate := d.make (fun _ _ _ => ⟨0, 0, 0⟩) c }, ?_, ?_, ?_, ?_⟩
  · rw [make_some hs hc]
    simp
  all_goals
    rintro p r rfl h
    unfold CondCfg.getPerformance
    simp [PerfData.make, PolySet.make, h, hd, hr, pure, Except.pure, bind, Except.bind]

theorem reports_of_differ {s t : Sim n k} {j : Fin k} (h : t = { s with cfg := { s.cfg with src := t.cfg.src } })
    (hj : t.cfg.src j = s.cfg.src j)
    (hcomp : s.cfg.compressorIndex = some j) {air inlet out x : ℚ} {pwr temp : UnitTag} {s' : Sim n k}
    (hok : s.getCompressorCapacity air inlet out pwr temp = .ok (x, s')) :
    ∃ t', t.getCompressorCapacity air inlet out pwr temp = .ok (x, t') := by
  obtain ⟨j', c, a, b, d, perf, h1, h2, h3, h4, h5, h6, h7, h8⟩ := getCompressorCapacity_ok hok
  have hct : t.cfg.compressorIndex = some j := by rw [h]; exact hcomp
  have ej : j' = j := by
    unfold Sim.compressor at h1
    simp only [hcomp] at h1
    split at h1
    · exact (congrArg Prod.fst (Except.ok.inj h1)).symm
    · cases h1
  subst ej
  have hp : t.newSetpointPossible d = s.newSetpointPossible d := by
    have e1 : t.setpoint = s.setpoint := by rw [h]
    have e2 : t.cfg.setpointFixed = s.cfg.setpointFixed := by rw [h]
    have e3 : t.cfg.lowestElementIndex = s.cfg.lowestElementIndex := by rw [h]
    unfold Sim.newSetpointPossible
    simp only [e1, e2, e3, hct, hcomp, hj]
  have hrate : ratingSetpoint t c d = ratingSetpoint s c d := by
    have e1 : t.setpoint = s.setpoint := by rw [h]
    unfold ratingSetpoint
    rw [hp, e1]
  obtain ⟨t', ht'⟩ := (capacityPerf_iff t j' c a b d perf).mpr (by
    rw [hrate, hj]; exact (capacityPerf_iff s j' c a b d perf).mp ⟨_, h7⟩)
  have hc' : t.compressor = .ok (j', c) := by
    rw [← h1]
    unfold Sim.compressor
    simp only [hct, hcomp, hj]
  refine ⟨t', ?_⟩
  unfold Sim.getCompressorCapacity
  simp only [hc', h2, h3, h4, bind, Except.bind, hj, if_neg h5, if_neg h6, ht', h8]
  rfl

/-- **C102.** With several heat pumps the capacity reported is that of the last, and replacing performance, which concerns
the first, does not change it. -/
theorem C102_capacity_of_another (s : Sim n k) (i j : Fin k) (c : CondCfg) (hc : (s.cfg.src i).kind = .condenser c)
    (hi : ∀ j < i, ∀ c, (s.cfg.src j).kind ≠ .condenser c) (hj : s.cfg.compressorIndex = some j) (hne : j ≠ i)
    (air inlet out x : ℚ) (pwr temp : UnitTag) (d : PerfData) :
    (∃ t', (s.makeCondenserPerformance d).getCompressorCapacity air inlet out pwr temp = .ok (x, t')) ↔
      ∃ s', s.getCompressorCapacity air inlet out pwr temp = .ok (x, s') := by
  have h := (C102_only_performance s d).2 i c hc hi
  have hj' : (s.makeCondenserPerformance d).cfg.compressorIndex = some j := by rw [h.rest]; exact hj
  have hs : s = { s.makeCondenserPerformance d with cfg := { (s.makeCondenserPerformance d).cfg with src := s.cfg.src } } := by
    rw [h.rest]
  exact ⟨fun ⟨_, e⟩ => reports_of_differ hs (h.others j hne).symm hj' e,
    fun ⟨_, e⟩ => reports_of_differ h.rest (h.others j hne) hj e⟩

/-- **C102.** With one heat pump, one that is not external to the tank, the capacity reported is what the new polynomials
say. -/
theorem C102_capacity (s : Sim n k) (i : Fin k) (c : CondCfg) (hc : (s.cfg.src i).kind = .condenser c)
    (hi : ∀ j < i, ∀ c, (s.cfg.src j).kind ≠ .condenser c) (hx : s.cfg.compressorIndex = some i)
    (hd : c.doDefrost = false) (hr : c.resDefrostPower_kW = 0) (ha : (s.cfg.src i).airflowFreedom = 1)
    (he : c.configuration ≠ .external) (ps : PolySet) (air water out : ℚ) (r : Perf)
    (hps : ps.evaluate air (water + c.coldSideOffset) = .ok r)
    (hair : (s.cfg.src i).minT ≤ air ∧ air ≤ (s.cfg.src i).maxT) (hout : out ≤ c.maxSetpoint - c.hotSideOffset) :
    ∃ t', (s.makeCondenserPerformance (.polys ps)).getCompressorCapacity air water out .KW .C =
      .ok (r.cop * c.copScale * (r.inputPower_W * c.inputPowerScale) / 1000, t') := by
  obtain ⟨c', h1, h2, -, -⟩ := C102_performs s i c hc hi hd hr s.setpoint air water (.polys ps)
  have hp := h2 ps r rfl hps
  have h := (C102_only_performance s (.polys ps)).2 i c hc hi
  set t := s.makeCondenserPerformance (.polys ps) with ht
  have hct : t.cfg.compressorIndex = some i := by rw [h.rest]; exact hx
  have e1 : t.setpoint = s.setpoint := by rw [h.rest]
  have hcc : ∃ f, c' = { c with evaluate := f } ∧ (t.cfg.src i).airflowFreedom = 1 ∧
      (t.cfg.src i).minT = (s.cfg.src i).minT ∧ (t.cfg.src i).maxT = (s.cfg.src i).maxT := by
    rcases h.source with e | ⟨c0, f, e0, e⟩
    · rw [e] at h1 ⊢
      rw [hc] at h1
      exact ⟨c.evaluate, (SourceKind.condenser.inj h1).symm, ha, rfl, rfl⟩
    · rw [hc] at e0
      obtain rfl := SourceKind.condenser.inj e0
      rw [e] at h1 ⊢
      exact ⟨f, (SourceKind.condenser.inj h1).symm, ha, rfl, rfl⟩
  obtain ⟨f, rfl, hflow, hmin, hmax⟩ := hcc
  have hcomp : t.compressor = .ok (i, { c with evaluate := f }) := by
    unfold Sim.compressor
    simp only [hct, h1]
  have hT : (0 : ℚ) < tolT := by norm_num [tolT]
  unfold Sim.getCompressorCapacity
  simp only [hcomp, bind, Except.bind, tempToC]
  rw [if_neg (by rw [hmin, hmax]; rintro (hh | hh) <;> linarith), if_neg (by intro hh; linarith)]
  unfold Sim.capacityPerf
  rw [if_neg (by exact he)]
  rw [hflow, e1, hp]
  exact ⟨_, rfl⟩

/-- A heater with two heat pumps, of which the second gives its capacity. -/
def twinSim : Sim 3 2 :=
  { sampleSim with cfg := { sampleSim.cfg with
      src := fun _ => { sampleSim.cfg.src 0 with backup := none }, compressorIndex := some 1, lowestElementIndex := none } }

example : ∃ c, (twinSim.cfg.src 0).kind = .condenser c ∧ (∀ j < (0 : Fin 2), ∀ c, (twinSim.cfg.src j).kind ≠ .condenser c) ∧
    twinSim.cfg.compressorIndex = some 1 :=
  ⟨_, rfl, fun j hj => absurd hj (Fin.not_lt_zero j), rfl⟩

/-- **C102**, a finding. Asked for its capacity before and after a replacement, a heater with two heat pumps says the same,
although the heat pump that was given the new performance now delivers another amount of heat. -/
theorem C102_capacity_stale :
    (∃ x t', twinSim.getCompressorCapacity 20 15 50 .KW .C = .ok (x, t') ∧
      ∃ t'', (twinSim.makeCondenserPerformance (.polys PolySet.samplePolys)).getCompressorCapacity 20 15 50 .KW .C = .ok (x, t'')) ∧
    ∃ c c' p p', (twinSim.cfg.src 0).kind = .condenser c ∧
      ((twinSim.makeCondenserPerformance (.polys PolySet.samplePolys)).cfg.src 0).kind = .condenser c' ∧
      c.getPerformance 1 55 20 15 = .ok p ∧ c'.getPerformance 1 55 20 15 = .ok p' ∧
      p'.outputPower_W ≠ p.outputPower_W := by
  constructor
  · obtain ⟨x, t', h⟩ : ∃ x t', twinSim.getCompressorCapacity 20 15 50 .KW .C = .ok (x, t') := by
      cases hh : twinSim.getCompressorCapacity 20 15 50 .KW .C with
      | ok r => exact ⟨r.1, r.2, rfl⟩
      | error e =>
        have : (match twinSim.getCompressorCapacity 20 15 50 .KW .C with | .ok _ => true | .error _ => false) = true := by
          decide +kernel
        rw [hh] at this
        cases this
    exact ⟨x, t', h, (C102_capacity_of_another twinSim 0 1 _ rfl (fun j hj => absurd hj (Fin.not_lt_zero j)) rfl
      (by decide) 20 15 50 x .KW .C _).mpr ⟨t', h⟩⟩
  · have key : ∃ p, sampleCond.getPerformance 1 55 20 15 = .ok p ∧
        ∃ p', CondCfg.getPerformance { sampleCond with evaluate := PolySet.samplePolys.make } 1 55 20 15 = .ok p' ∧
          p'.outputPower_W ≠ p.outputPower_W := by decide +kernel
    obtain ⟨p, h, p', h', hne⟩ := key
    exact ⟨_, _, p, p', rfl, rfl, h, h', hne⟩

/-- The single heat pump of `sampleSim`, given three polynomials. -/
example : ∃ c r, (sampleSim.cfg.src 0).kind = .condenser c ∧ sampleSim.cfg.compressorIndex = some 0 ∧
    c.doDefrost = false ∧ c.resDefrostPower_kW = 0 ∧ (sampleSim.cfg.src 0).airflowFreedom = 1 ∧
    c.configuration ≠ .external ∧ PolySet.samplePolys.evaluate 20 (15 + c.coldSideOffset) = .ok r ∧
    ((sampleSim.cfg.src 0).minT ≤ 20 ∧ 20 ≤ (sampleSim.cfg.src 0).maxT) ∧ 50 ≤ c.maxSetpoint - c.hotSideOffset := by
  obtain ⟨r, hr⟩ : ∃ r, PolySet.samplePolys.evaluate 20 (15 + sampleCond.coldSideOffset) = .ok r ∧ 0 < r.cop := by
    decide +kernel
  exact ⟨_, r, rfl, rfl, rfl, rfl, rfl, by decide, hr.1, by decide +kernel, by decide +kernel⟩

end HPWH
