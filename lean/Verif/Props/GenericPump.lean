import Verif.Props.PolyPositive
import Verif.Props.Works
import Mathlib.Tactic.FinCases

/-! # The generic heat pump built from volume and energy factor (C84) -/

namespace HPWH

open Spec
open _root_.HPWH.Units

variable {n k n₀ k₀ : ℕ}

/-- How much better than the reference heat pump one of this energy factor is: 70 % as good at 2, 95 % at 3.4, and on
the straight line through these otherwise. -/
def Spec.genericRating (EF : ℚ) : ℚ := lineAt 2 (70 / 100) (34 / 10) (95 / 100) EF

theorem genericFudge_eq (EF : ℚ) : genericFudge EF = genericRating EF := by
  unfold genericFudge genericRating lineAt
  ring

theorem genericRating_eq (EF : ℚ) : genericRating EF = 5 / 28 * (EF + 48 / 25) := by
  unfold genericRating lineAt
  ring

theorem genericRating_zero (EF : ℚ) : genericRating EF = 0 ↔ EF = -48 / 25 := by
  rw [genericRating_eq]
  constructor <;> intro h <;> linarith

theorem genericRating_pos (EF : ℚ) : 0 < genericRating EF ↔ -48 / 25 < EF := by
  rw [genericRating_eq]
  constructor <;> intro h <;> linarith

/-! ## Performance -/

theorem quadraticAt_mul (c : List ℚ) (f x : ℚ) : quadraticAt (c.map (· * f)) x = quadraticAt c x * f := by
  have e : ∀ i, (c.map (· * f)).getD i 0 = c.getD i 0 * f := fun i => by
    simp only [List.getD_eq_getElem?_getD, List.getElem?_map]
    cases c[i]? <;> simp
  unfold quadraticAt
  rw [e, e, e]; ring

theorem quadraticAt_div (c : List ℚ) (f x : ℚ) : quadraticAt (c.map (· / f)) x = quadraticAt c x / f := by
  simp only [div_eq_mul_inv]
  exact quadraticAt_mul c f⁻¹ x

theorem lineAt_mul (x0 y0 x1 y1 x f : ℚ) : lineAt x0 (y0 * f) x1 (y1 * f) x = lineAt x0 y0 x1 y1 x * f := by
  unfold lineAt; ring

theorem lineAt_div (x0 y0 x1 y1 x f : ℚ) : lineAt x0 (y0 / f) x1 (y1 / f) x = lineAt x0 y0 x1 y1 x / f := by
  simp only [div_eq_mul_inv]
  exact lineAt_mul x0 y0 x1 y1 x f⁻¹

theorem genericBase_proper : ProperPolys genericBase := ⟨by decide, by decide +kernel, by decide +kernel⟩

theorem genericPolys_proper (f : ℚ) : ProperPolys (genericPolys f) := by
  refine ⟨by simp [genericPolys, genericBase], ?_, ?_⟩
  · unfold genericPolys
    rw [List.pairwise_map]
    exact genericBase_proper.increasing
  · unfold genericPolys
    intro p hp
    obtain ⟨q, hq, rfl⟩ := List.mem_map.mp hp
    have := genericBase_proper.coefficients q hq
    simpa using this

/-- Scaling the polynomials scales COP and input power. -/
theorem genericPolys_evaluate (f ext hs : ℚ) : ∃ r r', genericBase.evaluate ext hs = .ok r ∧
    (genericPolys f).evaluate ext hs = .ok r' ∧ r.outputPower_W = r.cop * r.inputPower_W ∧
    r'.cop = r.cop * f ∧ r'.inputPower_W = r.inputPower_W / f ∧ r'.outputPower_W = r'.cop * r'.inputPower_W := by
  obtain ⟨i, hi, r, e, o, -⟩ := PolySet.evaluate_spec genericBase_proper ext hs
  obtain ⟨i', hi', r', e', o', -⟩ := PolySet.evaluate_spec (genericPolys_proper f) ext hs
  have h0 : i = 0 := by have : genericBase.length = 2 := rfl
                        omega
  have h0' : i' = 0 := by have : (genericPolys f).length = 2 := rfl
                          omega
  subst h0 h0'
  refine ⟨r, r', e, e', o.output, ?_, ?_, o'.output⟩
  · rw [o'.cop, o.cop]
    simp only [genericPolys, List.getElem_map, quadraticAt_mul, lineAt_mul]
  · rw [o'.input, o.input]
    simp only [genericPolys, List.getElem_map, quadraticAt_div, lineAt_div]

/-! ## Acceptance -/

/-- The heat sources with their distributions worked out. -/
def pumpSources (f resUse : ℚ) : Fin 3 → SourceCfg 11 3 :=
  ![{ element 6 4500 with isVIP := true, turnOn := [Logics.topThird resUse], followedBy := some 1 },
    { element 0 4000 with
      heatDist := [⟨1 / 12, 0⟩, ⟨1 / 6, 12 / 5⟩, ⟨1 / 4, 48 / 5⟩, ⟨1, 0⟩]
      shutOff := [Logics.bottomTwelfthMaxTemp (F_TO_C (861111 / 10000))]
      backup := some 2
      followedBy := some 2 },
    genericCompressor f [⟨1 / 3, 3⟩, ⟨1, 0⟩]]

theorem genericSources_eq (f resUse : ℚ) : genericSources f resUse = .ok (pumpSources f resUse) := by
  have h1 : WDist.ofNodes [1, 0, 0] = .ok [⟨1 / 3, 3⟩, ⟨1, 0⟩] := by decide +kernel
  have h2 : WDist.ofNodes [0, 1 / 5, 4 / 5, 0, 0, 0, 0, 0, 0, 0, 0, 0] =
      .ok [⟨1 / 12, 0⟩, ⟨1 / 6, 12 / 5⟩, ⟨1 / 4, 48 / 5⟩, ⟨1, 0⟩] := by decide +kernel
  unfold genericSources
  rw [h1, h2]
  rfl

/-- The condenser settings of the compressor. -/
def pumpCond (f : ℚ) : CondCfg :=
  { CondCfg.blank with
    hysteresis := dF_TO_dC 2
    configuration := .wrapped
    maxSetpoint := maxOutletR134A
    evaluate := (genericPolys f).make }

theorem pump_kinds (f resUse : ℚ) : (pumpSources f resUse 0).kind = .resistance (4500 / 1000) ∧
    (pumpSources f resUse 1).kind = .resistance (4000 / 1000) ∧
    (pumpSources f resUse 2).kind = .condenser (pumpCond f) := ⟨rfl, rfl, rfl⟩

theorem pump_cond (f resUse : ℚ) (i : Fin 3) (c : CondCfg) (h : IsHeatPump (pumpSources f resUse i) c) :
    i = 2 ∧ c = pumpCond f := by
  obtain ⟨k0, k1, k2⟩ := pump_kinds f resUse
  unfold IsHeatPump at h
  fin_cases i
  · cases k0.symm.trans h
  · cases k1.symm.trans h
  · cases k2.symm.trans h
    exact ⟨rfl, rfl⟩

theorem topThird_valid (x : ℚ) : ValidLogic (Logics.topThird x) := by
  have : (Logics.topThird 0).isValid = true := by decide +kernel
  exact (validLogic_iff _).mp (show (Logics.topThird x).isValid = true from this)

theorem pump_acceptable (f resUse : ℚ) (i : Fin 3) : AcceptableSource (pumpSources f resUse) i := by
  have d0 : (twelfth 6).isValid = true := by decide +kernel
  have d1 : WDist.isValid [⟨1 / 12, 0⟩, ⟨1 / 6, 12 / 5⟩, ⟨1 / 4, 48 / 5⟩, ⟨1, 0⟩] = true := by decide +kernel
  have d2 : WDist.isValid [⟨1 / 3, 3⟩, ⟨1, 0⟩] = true := by decide +kernel
  have hl : ∀ l ∈ [Logics.bottomThird (dF_TO_dC (336883 / 10000)), Logics.standby (dF_TO_dC (12392 / 1000)),
      Logics.bottomTwelfthMaxTemp (F_TO_C (861111 / 10000))], l.isValid = true := by decide +kernel
  have hl' : ∀ l ∈ [Logics.bottomThird (dF_TO_dC (336883 / 10000)), Logics.standby (dF_TO_dC (12392 / 1000)),
      Logics.bottomTwelfthMaxTemp (F_TO_C (861111 / 10000))], ValidLogic l :=
    fun l h => (validLogic_iff l).mp (hl l h)
  have one : (0 : ℚ) < 1 ∧ (1 : ℚ) ≤ 1 := by norm_num
  have pc := pump_cond f resUse
  fin_cases i
  · refine ⟨.inl (by simp [pumpSources]), ?_, by simp [pumpSources, element, SourceCfg.blank],
      (isValid_spec _).mp d0, one, fun c hc => absurd (pc 0 c hc).1 (by decide),
      fun c hc => absurd (pc 0 c hc).1 (by decide), fun c hc => absurd (pc 0 c hc).1 (by decide)⟩
    intro l hl
    have : l ∈ [Logics.topThird resUse] := hl
    rw [List.mem_singleton] at this
    rw [this]; exact topThird_valid _
  · refine ⟨.inr ⟨2, ⟨rfl, ?_⟩, by simp [pumpSources, genericCompressor]⟩,
      by simp [pumpSources, element, SourceCfg.blank], ?_,
      (isValid_spec _).mp d1, one, fun c hc => absurd (pc 1 c hc).1 (by decide),
      fun c hc => absurd (pc 1 c hc).1 (by decide), fun c hc => absurd (pc 1 c hc).1 (by decide)⟩
    · intro j hj
      fin_cases j
      · exact fun h => by cases h
      · exact fun h => by cases h
      · exact absurd hj (by decide)
    · intro l hl
      refine hl' l ?_
      have : l ∈ [Logics.bottomTwelfthMaxTemp (F_TO_C (861111 / 10000))] := hl
      rw [List.mem_singleton] at this
      rw [this]; simp
  · refine ⟨.inl (by simp [pumpSources, genericCompressor]), ?_,
      by simp [pumpSources, genericCompressor, SourceCfg.blank], (isValid_spec _).mp d2, one,
      fun c hc he => ?_, fun c hc he => ?_, fun c hc _ => ?_⟩
    · intro l hl
      refine hl' l ?_
      have : l ∈ [Logics.bottomThird (dF_TO_dC (336883 / 10000)), Logics.standby (dF_TO_dC (12392 / 1000))] := hl
      simp only [List.mem_cons, List.not_mem_nil, or_false] at this ⊢
      tauto
    · rw [(pc 2 c hc).2] at he; cases he
    · rw [(pc 2 c hc).2] at he; cases he
    · rw [(pc 2 c hc).2]; rfl

theorem genericLoss_nonneg (pow : ℚ → ℚ → ℚ) (hp : PowPos pow) {vol : ℚ} (hV : 0 < vol) : 0 ≤ genericLoss pow vol := by
  have := hp (vol / GAL_TO_L 1) (33 / 100) (by unfold GAL_TO_L LPerGal; positivity)
  unfold genericLoss
  positivity

/-- An aquastat that looks at the lowest third and, on standby, at the top. -/
theorem pump_aqua (p : Plant 11) (a b : ℚ) :
    Sim.aquaLoop p [Logics.bottomThird a, Logics.standby b] 1 = .ok (5 / 24) := by
  have e1 : Sim.avgFract (Logics.bottomThird a) p = .ok (5 / 24) := by
    show (if (Sim.avgFractLoop 0 (rangeDist 0 (1 / 3)) 0 0).2.1 = 0 ∨
        (Sim.avgFractLoop 0 (rangeDist 0 (1 / 3)) 0 0).2.2 = 0 then .error .nan
      else .ok ((Sim.avgFractLoop 0 (rangeDist 0 (1 / 3)) 0 0).1 /
        (Sim.avgFractLoop 0 (rangeDist 0 (1 / 3)) 0 0).2.1 /
        (Sim.avgFractLoop 0 (rangeDist 0 (1 / 3)) 0 0).2.2 + 1 / 2 / 12) : Res ℚ) = _
    decide +kernel
  have e2 : Sim.avgFract (Logics.standby b) p = .ok 1 := rfl
  simp only [Sim.aquaLoop, e1, e2, bind, Except.bind]
  norm_num

/-- **C84.** The generic heat pump can be built from exactly the positive volumes and the energy factors other than
−1.92; there is no condition on `resUse`. -/
theorem C84_accepted_iff (m : Libm) (pow : ℚ → ℚ → ℚ) (hp : PowPos pow) (base : Sim n₀ k₀) (vol EF resUse : ℚ) :
    (∃ s, initGeneric m pow base vol EF resUse = .ok s) ↔ 0 < vol ∧ EF ≠ -48 / 25 := by
  unfold initGeneric
  simp only [genericFudge_eq, genericRating_zero]
  by_cases hE : EF = -48 / 25
  · simp [hE]
  rw [if_neg hE, genericSources_eq]
  simp only [bind, Except.bind, ne_eq, hE, not_false_eq_true, and_true]
  constructor
  · rintro ⟨s, h⟩
    obtain ⟨s1, h1, -⟩ := (bind_ok_iff _ _ _).mp h
    exact withTank_pos pow _ h1
  · intro hV
    obtain ⟨t, ht, e⟩ := withTank_ok pow hp (base.fresh (pumpSources (genericRating EF) resUse)) hV
      (genericLoss pow vol)
    rw [e]
    refine finish_total m pow hp (filled base (pumpSources (genericRating EF) resUse) false t (genericLoss pow vol)) ?_
      (.inl (by norm_num)) (pump_acceptable _ _) ?_ (genericLoss_nonneg pow hp hV) ?_ rfl ?_
    · show 0 < t.volume_L
      rw [ht]; exact hV
    · unfold SetpointAllowed
      rw [if_neg (by simp [filled, Sim.fresh])]
      refine ⟨fun _ => ?_, fun hn => absurd ⟨0, _, (pump_kinds (genericRating EF) resUse).1⟩ hn, fun h => absurd h (by norm_num)⟩
      show F_TO_C 127 ≤ _
      norm_num [F_TO_C, offsetF, FperC]
    · show t.heatExchangerEffectiveness ≤ 1
      rw [ht]; show (9 / 10 : ℚ) ≤ 1; norm_num
    · intro j c hj
      obtain ⟨rfl, rfl⟩ := pump_cond _ _ j c hj.1
      refine ⟨5 / 24, 1, pump_aqua _ _ _, rfl, ?_⟩
      norm_num [tolMin]

/-- The simulator behind the generic heat pump. -/
theorem generic_ok (m : Libm) (pow : ℚ → ℚ → ℚ) (hp : PowPos pow) (base : Sim n₀ k₀) (vol EF resUse : ℚ) (s : Sim 11 3)
    (h : initGeneric m pow base vol EF resUse = .ok s) :
    0 < vol ∧ ∃ t, SameButSizes { (base.fresh (pumpSources (genericRating EF) resUse)).tank with
        volumeFixed := false, volume_L := vol } t ∧
      (filled base (pumpSources (genericRating EF) resUse) false t (genericLoss pow vol)).finish m pow = .ok s := by
  obtain ⟨hV, hE⟩ := (C84_accepted_iff m pow hp base vol EF resUse).mp ⟨s, h⟩
  unfold initGeneric at h
  simp only [genericFudge_eq, genericRating_zero] at h
  rw [if_neg hE, genericSources_eq] at h
  obtain ⟨src, e0, h⟩ := (bind_ok_iff _ _ _).mp h
  cases e0
  obtain ⟨s1, h1, h2⟩ := (bind_ok_iff _ _ _).mp h
  obtain ⟨t, ht, e⟩ := withTank_ok pow hp (base.fresh (pumpSources (genericRating EF) resUse)) hV
    (genericLoss pow vol)
  cases h1.symm.trans e
  exact ⟨hV, t, ht, h2⟩

theorem pump_proper (f resUse : ℚ) (i : Fin 3) : (pumpSources f resUse i).heatDist.Proper := by
  refine ⟨(isValid_spec _).mpr (pump_acceptable f resUse i).heat, ?_⟩
  have key : ∀ d ∈ ([twelfth 6, [⟨1 / 12, 0⟩, ⟨1 / 6, 12 / 5⟩, ⟨1 / 4, 48 / 5⟩, ⟨1, 0⟩], [⟨1 / 3, 3⟩, ⟨1, 0⟩]] :
      List WDist), ∀ p ∈ d, 0 ≤ p.weight := by decide +kernel
  fin_cases i
  · exact key _ (List.mem_cons_self ..)
  · exact key _ (List.mem_cons_of_mem _ (List.mem_cons_self ..))
  · exact key _ (List.mem_cons_of_mem _ (List.mem_cons_of_mem _ (List.mem_cons_self ..)))

theorem pump_lowest (f r : ℚ) : (findIndices (pumpSources f r)).map (·.lowest) = .ok (some 1) := by
  have h0 : WDist.lowestNormalizedHeight (twelfth 6) = .ok (1 / 2) := by decide +kernel
  have h1 : WDist.lowestNormalizedHeight [⟨1 / 12, 0⟩, ⟨1 / 6, 12 / 5⟩, ⟨1 / 4, 48 / 5⟩, ⟨1, 0⟩] = .ok (1 / 12) := by
    decide +kernel
  have e0 : (pumpSources f r 0).heatDist = twelfth 6 := rfl
  have e1 : (pumpSources f r 1).heatDist = [⟨1 / 12, 0⟩, ⟨1 / 6, 12 / 5⟩, ⟨1 / 4, 48 / 5⟩, ⟨1, 0⟩] := rfl
  obtain ⟨k0, k1, k2⟩ := pump_kinds f r
  have fr : List.finRange 3 = [0, 1, 2] := by decide
  unfold findIndices
  rw [fr]
  simp only [List.foldlM, indexStep, k0, k1, k2, e0, e1, h0, h1, bind, Except.bind, pure, Except.pure, Except.map]
  norm_num

/-- **C84.** What is delivered: a tank of the given volume at its setpoint of 127 °F, with the heat loss coefficient of
the regression over the volume; an upper element of 4.5 kW at node 6, which has priority, a lower one of 4 kW that
heats nodes 1 and 2 (1 : 4), and a heat pump around the tank which works between 45 and 120 °F and heats the
lowest third. Upper element hands over to the lower, the lower to the heat pump; heat pump and lower element back
each other up. -/
theorem C84_delivered (m : Libm) (pow : ℚ → ℚ → ℚ) (hp : PowPos pow) (base : Sim n₀ k₀) (vol EF resUse : ℚ)
    (s : Sim 11 3) (h : initGeneric m pow base vol EF resUse = .ok s) :
    Delivered s vol (76183819 / 10000000000 *
      (75156316175 / 10000000000 * pow (vol / (378541 / 100000)) (33 / 100) + 59995357658 / 10000000000) ^ 2) ∧
    Derived s ∧ s.cfg.vipIndex = some 0 ∧ s.cfg.lowestElementIndex = some 1 ∧ s.cfg.compressorIndex = some 2 ∧
    ElementAt s 0 6 4500 ∧
    (s.cfg.src 1).kind = .resistance 4 ∧
    (s.cfg.src 1).heatDist.calcHeatDist 12 = .ok (fun j => if j = 1 then 1 / 5 else if j = 2 then 4 / 5 else 0) ∧
    (∃ c, IsHeatPump (s.cfg.src 2) c ∧ c.configuration = .wrapped ∧ c.maxSetpoint = (160 - 32) * 5 / 9) ∧
    (s.cfg.src 2).minT = (45 - 32) * 5 / 9 ∧ (s.cfg.src 2).maxT = (120 - 32) * 5 / 9 ∧
    (s.cfg.src 2).heatDist.calcHeatDist 12 = .ok (fun j => if j < 4 then 1 / 4 else 0) ∧
    (s.cfg.src 0).followedBy = some 1 ∧ (s.cfg.src 0).backup = none ∧
    (s.cfg.src 1).followedBy = some 2 ∧ (s.cfg.src 1).backup = some 2 ∧
    (s.cfg.src 2).followedBy = none ∧ (s.cfg.src 2).backup = some 1 ∧
    ∀ i, (s.cfg.src i).companion = none := by
  obtain ⟨hV, t, ht, hf⟩ := generic_ok m pow hp base vol EF resUse s h
  have hV' : 0 < (filled base (pumpSources (genericRating EF) resUse) false t (genericLoss pow vol)).tank.volume_L := by
    show 0 < t.volume_L
    rw [ht]; exact hV
  obtain ⟨-, e1, e2, e3, e4, e5⟩ := finish_same hp hV' hf
  have hder : Derived s := by
    obtain ⟨s1, h1, h2, rfl⟩ := finish_ok hf
    have := (C59_derived m pow _ s1 (pump_proper _ _) h1).1
    exact ⟨⟨this.heatPump, this.element⟩, this.lowest, this.priority, this.cools⟩
  have st : s.st = fun _ => .blank := by rw [e4]; rfl
  have c0 : (s.cfg.src 0).heatDist = twelfth 6 := by rw [e2]; rfl
  have c1 : (s.cfg.src 1).heatDist = [⟨1 / 12, 0⟩, ⟨1 / 6, 12 / 5⟩, ⟨1 / 4, 48 / 5⟩, ⟨1, 0⟩] := by rw [e2]; rfl
  have c2 : (s.cfg.src 2).heatDist = [⟨1 / 3, 3⟩, ⟨1, 0⟩] := by rw [e2]; rfl
  have k0 : (s.cfg.src 0).kind = .resistance (4500 / 1000) := by rw [e2]; rfl
  have k1 : (s.cfg.src 1).kind = .resistance (4000 / 1000) := by rw [e2]; rfl
  have k2 : (s.cfg.src 2).kind = .condenser (pumpCond (genericRating EF)) := by rw [e2]; rfl
  have v0 : (s.cfg.src 0).isVIP = true := by rw [e2]; rfl
  refine ⟨⟨?_, ?_, ?_, fun j => ?_, fun i => by rw [st]; rfl, fun i => by rw [st]; rfl, ?_, by rw [e3]; rfl,
    by rw [e4]; rfl, by rw [e4]; rfl, by rw [e3]; rfl⟩, hder, ?_, ?_, ?_, ⟨k0, ?_⟩, ?_, ?_, ⟨_, k2, rfl, ?_⟩, ?_, ?_,
    ?_, by rw [e2]; rfl, by rw [e2]; rfl, by rw [e2]; rfl, by rw [e2]; rfl, by rw [e2]; rfl, by rw [e2]; rfl, fun i => ?_⟩
  · rw [e1]; show t.volume_L = vol; rw [ht]
  · rw [e1]; show genericLoss pow vol = _
    unfold genericLoss GAL_TO_L LPerGal
    simp only [one_mul]
    ring
  · rw [e4]; show F_TO_C 127 = _
    norm_num [F_TO_C, offsetF, FperC]
  · rw [e1, e4]; rfl
  · rw [Bool.eq_false_iff]
    intro hh
    obtain ⟨i, hi⟩ := e5.mp hh
    cases hi
  · rw [hder.priority]
    exact ⟨⟨⟨_, k0⟩, v0⟩, fun j _ _ => Fin.zero_le _⟩
  · have hf1 : s.cfg.lowestElementIndex = some 0 ∨ s.cfg.lowestElementIndex = some 1 := by
      have hs : s.cfg.lowestElementIndex ≠ none := fun hn => by
        have := hder.element.mpr ⟨0, _, k0⟩
        rw [hn] at this
        simp at this
      obtain ⟨i, hi⟩ := Option.ne_none_iff_exists'.mp hs
      obtain ⟨⟨w, hw⟩, -⟩ := (hder.lowest i).mp hi
      fin_cases i
      · exact .inl hi
      · exact .inr hi
      · cases k2.symm.trans hw
    rcases hf1 with hf1 | hf1
    · exfalso
      obtain ⟨s1, h1, h2, rfl⟩ := finish_ok hf
      obtain ⟨ix, t', mp, hix, -, -, rfl⟩ := calcDerived_ok h1
      have := pump_lowest (genericRating EF) resUse
      have hix : findIndices (pumpSources (genericRating EF) resUse) = .ok ix := hix
      rw [hix] at this
      have hf1 : ix.lowest = some 0 := hf1
      simp only [Except.map, hf1, Except.ok.injEq] at this
      cases this
    · exact hf1
  · rw [hder.heatPump]
    refine ⟨_, k2, fun j _ => ?_⟩
    exact Fin.le_last j
  · rw [c0]
    have : ∃ d, (twelfth 6).calcHeatDist 12 = .ok d ∧ ∀ j, d j = if j = 6 then 1 else 0 := by decide +kernel
    obtain ⟨d, hd, hj⟩ := this
    rw [hd, funext hj]
  · rw [k1]; norm_num
  · rw [c1]
    have : ∃ d, WDist.calcHeatDist [⟨1 / 12, 0⟩, ⟨1 / 6, 12 / 5⟩, ⟨1 / 4, 48 / 5⟩, ⟨1, 0⟩] 12 = .ok d ∧
        ∀ j, d j = if j = 1 then 1 / 5 else if j = 2 then 4 / 5 else 0 := by decide +kernel
    obtain ⟨d, hd, hj⟩ := this
    rw [hd, funext hj]
  · show F_TO_C 160 = _
    norm_num [F_TO_C, offsetF, FperC]
  · rw [e2]; show F_TO_C 45 = _
    norm_num [F_TO_C, offsetF, FperC]
  · rw [e2]; show F_TO_C 120 = _
    norm_num [F_TO_C, offsetF, FperC]
  · rw [c2]
    have : ∃ d, WDist.calcHeatDist [⟨1 / 3, 3⟩, ⟨1, 0⟩] 12 = .ok d ∧
        ∀ j, d j = if j < 4 then 1 / 4 else 0 := by decide +kernel
    obtain ⟨d, hd, hj⟩ := this
    rw [hd, funext hj]
  · rw [e2]
    fin_cases i <;> rfl

/-- **C84.** Performance at any air and water temperature: the COP is that of the reference heat pump times the rating
of the energy factor, the input power that of the reference divided by it, so that all of them deliver the
same power. -/
theorem C84_performance (m : Libm) (pow : ℚ → ℚ → ℚ) (hp : PowPos pow) (base : Sim n₀ k₀) (vol EF resUse : ℚ)
    (s : Sim 11 3) (h : initGeneric m pow base vol EF resUse = .ok s) (setpoint air water : ℚ) :
    ∃ c ref perf, IsHeatPump (s.cfg.src 2) c ∧ genericBase.evaluate air water = .ok ref ∧
      c.getPerformance (s.cfg.src 2).airflowFreedom setpoint air water = .ok perf ∧
      perf.cop = genericRating EF * ref.cop ∧ perf.inputPower_W = ref.inputPower_W / genericRating EF ∧
      perf.outputPower_W = ref.outputPower_W := by
  obtain ⟨hV, t, ht, hf⟩ := generic_ok m pow hp base vol EF resUse s h
  have hE := ((C84_accepted_iff m pow hp base vol EF resUse).mp ⟨s, h⟩).2
  have hr : genericRating EF ≠ 0 := fun h0 => hE ((genericRating_zero EF).mp h0)
  have hV' : 0 < (filled base (pumpSources (genericRating EF) resUse) false t (genericLoss pow vol)).tank.volume_L := by
    show 0 < t.volume_L
    rw [ht]; exact hV
  obtain ⟨-, -, e2, -⟩ := finish_same hp hV' hf
  have k2 : (s.cfg.src 2).kind = .condenser (pumpCond (genericRating EF)) := by rw [e2]; rfl
  have a2 : (s.cfg.src 2).airflowFreedom = 1 := by rw [e2]; rfl
  obtain ⟨r, r', h1, h2, h3, h4, h5, h6⟩ := genericPolys_evaluate (genericRating EF) air water
  have hev : (genericPolys (genericRating EF)).make setpoint air water = r' := by
    unfold PolySet.make; rw [h2]
  refine ⟨_, r, ⟨r'.inputPower_W, r'.cop * r'.inputPower_W, r'.cop⟩, k2, h1, ?_, ?_, ?_, ?_⟩
  · rw [a2]
    simp only [CondCfg.getPerformance, pumpCond, CondCfg.blank, add_zero, gt_iff_lt, lt_irrefl, decide_false,
      Bool.false_and, Bool.false_eq_true, if_false, hev, mul_one, pure, Except.pure, bind, Except.bind, ne_eq,
      not_true_eq_false]
  · show r'.cop = _
    rw [h4]; ring
  · exact h5
  · show r'.cop * r'.inputPower_W = _
    rw [h4, h5, h3]; field_simp

/-- **C84.** With air between −20 and 50 °C and water between 0 °C and the highest setpoint (160 °F), for every energy
factor above −1.92 the heat pump has positive COP and takes and delivers positive power. -/
theorem C84_positive (m : Libm) (pow : ℚ → ℚ → ℚ) (hp : PowPos pow) (base : Sim n₀ k₀) (vol EF resUse : ℚ)
    (hEF : -48 / 25 < EF) (s : Sim 11 3) (h : initGeneric m pow base vol EF resUse = .ok s) (setpoint air water : ℚ)
    (ha : Lies (-20) ((50 : ℚ) : WithTop ℚ) air) (hw : Lies 0 (((160 - 32) * 5 / 9 : ℚ) : WithTop ℚ) water)
    (c : CondCfg) (hc : IsHeatPump (s.cfg.src 2) c) (perf : Perf)
    (hpf : c.getPerformance (s.cfg.src 2).airflowFreedom setpoint air water = .ok perf) :
    0 < perf.cop ∧ 0 < perf.inputPower_W ∧ 0 < perf.outputPower_W := by
  obtain ⟨c', ref, perf', hc', h1, h2, h3, h4, h5⟩ := C84_performance m pow hp base vol EF resUse s h setpoint air water
  cases (show (s.cfg.src 2).kind = _ from hc).symm.trans hc'
  cases hpf.symm.trans h2
  have hr := (genericRating_pos EF).mpr hEF
  have hpos : genericBase.posOn (-4) 122 32 160 = true := by decide +kernel
  have ha1 := ha.1
  have ha2 := WithTop.coe_le_coe.mp ha.2
  have hw1 := hw.1
  have hw2 := WithTop.coe_le_coe.mp hw.2
  obtain ⟨r, e, p1, p2, p3⟩ := PolySet.posOn_pos hpos (ext := air) (hs := water) (by unfold fahrenheit; linarith)
    (by unfold fahrenheit; linarith) (by unfold fahrenheit; linarith) (by unfold fahrenheit; linarith)
  cases h1.symm.trans e
  rw [h3, h4, h5, p3]
  exact ⟨by positivity, by positivity, by positivity⟩

/-- **C84.** From the two numbers to the run: for every energy factor above −1.92, a run of any number of minutes with
entering water and air between 0 °C and the highest setpoint, and the air at the heat pump between −20 and
50 °C, keeps all temperatures of the tank and of the water delivered between 0 °C and 160 °F, and balances. The tank
must be large enough for losses and conduction within a minute (`Gentle`). -/
theorem C84_run (m : Libm) (hexp : ∀ x, 0 ≤ m.exp x) (hl : LogLike m.log) (pow : ℚ → ℚ → ℚ) (hp : PowPos pow)
    (hp1 : ∀ x y, 0 ≤ x → x ≤ 1 → 0 ≤ pow x y ∧ pow x y ≤ 1) (base : Sim n₀ k₀) (vol EF resUse : ℚ)
    (hEF : -48 / 25 < EF) (s s' : Sim 11 3) (h : initGeneric m pow base vol EF resUse = .ok s) (hg : Gentle s)
    (fuel : ℕ) (us : List Sim.RunInput)
    (hu : ∀ u ∈ us, 0 ≤ u.draw_L ∧ Lies 0 (((160 - 32) * 5 / 9 : ℚ) : WithTop ℚ) u.inletT ∧
      Lies 0 (((160 - 32) * 5 / 9 : ℚ) : WithTop ℚ) u.tankAmbient ∧ Lies (-20) ((50 : ℚ) : WithTop ℚ) u.sourceAmbient)
    (hrun : Sim.runNSteps m fuel s us = .ok s') :
    (∀ j, Lies 0 (((160 - 32) * 5 / 9 : ℚ) : WithTop ℚ) (s'.tank.nodeTs j)) ∧
    Lies 0 (((160 - 32) * 5 / 9 : ℚ) : WithTop ℚ) s'.tank.outletT ∧
    tankHeat vol s'.tank.nodeTs = tankHeat vol (fun _ : Fin 12 => (127 - 32) * 5 / 9) +
      3600 * ∑ i, (s'.st i).energyOutput_kWh +
      ∑ t : Fin us.length, waterHeat us[t].draw_L us[t].inletT -
      waterHeat (∑ t : Fin us.length, us[t].draw_L) s'.tank.outletT -
      3600 * s'.standbyLosses_kWh := by
  have hd := (C84_delivered m pow hp base vol EF resUse s h).1
  obtain ⟨hV, t, ht, hf⟩ := generic_ok m pow hp base vol EF resUse s h
  have hV' : 0 < (filled base (pumpSources (genericRating EF) resUse) false t (genericLoss pow vol)).tank.volume_L := by
    show 0 < t.volume_L
    rw [ht]; exact hV
  obtain ⟨-, e1, e2, e3, e4, -⟩ := finish_same hp hV' hf
  have hex : s.tank.hasHeatExchanger = false := by
    rw [e1]; show t.hasHeatExchanger = false
    rw [ht]; rfl
  have hsp : Lies 0 (((160 - 32) * 5 / 9 : ℚ) : WithTop ℚ) (F_TO_C 127) :=
    lies_coe.mpr (by norm_num [F_TO_C, offsetF, FperC])
  have hb : Built (filled base (pumpSources (genericRating EF) resUse) false t (genericLoss pow vol)) 0
      (((160 - 32) * 5 / 9 : ℚ) : WithTop ℚ) (-20) 50 := by
    refine
      { nodes := by norm_num
        volume := hV'
        inlet := ?_
        inlet2 := ?_
        mixBelow := ?_
        mixing := ?_
        exchanger := ?_
        fittings := ?_
        step := by show (0 : ℚ) ≤ 1; norm_num
        room := rfl
        absolute := by show _ < F_TO_C 127; norm_num [F_TO_C, offsetF, FperC]
        setpoint := hsp.2
        water := fun _ => hsp
        weights := fun i => (pump_proper _ _ i).2
        spread := fun i c hc _ => ?_
        power := fun i w hw => ?_
        external := fun i c hc he => ?_
        output := fun i c hc x _ air water perf ha hw hpf => ?_ }
    · show t.inletHeight ≤ 11
      rw [ht]; exact Nat.zero_le _
    · show t.inlet2Height ≤ 11
      rw [ht]; exact Nat.zero_le _
    · show t.mixBelowFractionOnDraw ≤ 1
      rw [ht]; show (1 / 3 : ℚ) ≤ 1; norm_num
    · show t.doInversionMixing = true
      rw [ht]; rfl
    · show 0 ≤ t.heatExchangerEffectiveness
      rw [ht]; show (0 : ℚ) ≤ 9 / 10; norm_num
    · show 0 ≤ t.fittingsUA
      rw [ht]; exact le_rfl
    · obtain ⟨rfl, -⟩ := pump_cond _ _ i c hc
      have key : ∀ x : Fin 12, ∃ w, WDist.normalizedWeight [⟨1 / 3, 3⟩, ⟨1, 0⟩] ((x : ℚ) / 12) (((x : ℚ) + 1) / 12) =
          .ok w ∧ w * 12 ≤ 12 := by decide +kernel
      intro x w hw
      obtain ⟨w', e, hle⟩ := key x
      have : (Except.ok w : Res ℚ) = .ok w' := by
        rw [← e, ← hw]
        show WDist.normalizedWeight [⟨1 / 3, 3⟩, ⟨1, 0⟩] _ _ = _
        norm_num
      cases this
      norm_num
      linarith
    · obtain ⟨k0, k1, k2⟩ := pump_kinds (genericRating EF) resUse
      have hw : (pumpSources (genericRating EF) resUse i).kind = .resistance w := hw
      fin_cases i
      · cases k0.symm.trans hw; norm_num
      · cases k1.symm.trans hw; norm_num
      · cases k2.symm.trans hw
    · rw [(pump_cond _ _ i c hc).2] at he
      cases he
    · obtain ⟨rfl, rfl⟩ := pump_cond _ _ i c hc
      have k2 : IsHeatPump (s.cfg.src 2) (pumpCond (genericRating EF)) := by
        unfold IsHeatPump; rw [e2]; rfl
      refine (C84_positive m pow hp base vol EF resUse hEF s h x air water ha hw _ k2 perf ?_).2.2
      have a2 : (s.cfg.src 2).airflowFreedom = 1 := by rw [e2]; rfl
      rw [a2]; exact hpf
  have hw := finish_works m hl pow hp hp1 _ s 0 _ (-20) 50 hb (genericLoss_nonneg pow hp hV)
    (by show t.heatExchangerEffectiveness ≤ 1
        rw [ht]; show (9 / 10 : ℚ) ≤ 1; norm_num) hf hg
  obtain ⟨r1, r2, r3⟩ := C83_run m hexp fuel s s' us 0 _ (-20) 50 hw (fun u hu' => by
    obtain ⟨u1, u2, u3, u4⟩ := hu u hu'
    exact ⟨u1, le_refl 0, u2, .inl rfl, fun hh => (by rw [hex] at hh; cases hh), rfl, u3, fun _ => u4,
      fun hh => (by rw [hd.room] at hh; cases hh)⟩) hrun
  refine ⟨r1, r2, ?_⟩
  rw [hd.volume] at r3
  rw [r3]
  congr 4
  have : s.tank.nodeTs = fun _ => (127 - 32) * 5 / 9 := funext fun j => (hd.hot j).trans hd.setpoint
  rw [this]

/-- Finding: energy factors are not checked. Those below −1.92 are accepted and give a heat pump with a negative COP and
negative input power, at all temperatures at which the others have positive ones. -/
theorem C84_negative_factor (m : Libm) (pow : ℚ → ℚ → ℚ) (hp : PowPos pow) (base : Sim n₀ k₀) (vol EF resUse : ℚ)
    (hV : 0 < vol) (hEF : EF < -48 / 25) (setpoint air water : ℚ)
    (ha : Lies (-20) ((50 : ℚ) : WithTop ℚ) air) (hw : Lies 0 (((160 - 32) * 5 / 9 : ℚ) : WithTop ℚ) water) :
    ∃ s c perf, initGeneric m pow base vol EF resUse = .ok s ∧ IsHeatPump (s.cfg.src 2) c ∧
      c.getPerformance (s.cfg.src 2).airflowFreedom setpoint air water = .ok perf ∧
      perf.cop < 0 ∧ perf.inputPower_W < 0 := by
  obtain ⟨s, h⟩ := (C84_accepted_iff m pow hp base vol EF resUse).mpr ⟨hV, hEF.ne⟩
  obtain ⟨c, ref, perf, hc, h1, h2, h3, h4, -⟩ := C84_performance m pow hp base vol EF resUse s h setpoint air water
  have hr : genericRating EF < 0 := by rw [genericRating_eq]; linarith
  have hpos : genericBase.posOn (-4) 122 32 160 = true := by decide +kernel
  have ha1 := ha.1
  have ha2 := WithTop.coe_le_coe.mp ha.2
  have hw1 := hw.1
  have hw2 := WithTop.coe_le_coe.mp hw.2
  obtain ⟨r, e, p1, p2, -⟩ := PolySet.posOn_pos hpos (ext := air) (hs := water) (by unfold fahrenheit; linarith)
    (by unfold fahrenheit; linarith) (by unfold fahrenheit; linarith) (by unfold fahrenheit; linarith)
  cases h1.symm.trans e
  refine ⟨s, c, perf, h, hc, h2, ?_, ?_⟩
  · rw [h3]; exact mul_neg_of_neg_of_pos hr p2
  · rw [h4]; exact div_neg_of_pos_of_neg p1 hr

instance (s : Sim n k) : Decidable (Gentle s) := by unfold Gentle; infer_instance

/-- The hypotheses are met by a heater of 200 L with an energy factor of 3, which heats during a step with a draw. -/
example : ∃ s, initGeneric sampleLibm samplePow sampleSim 200 3 10 = .ok s ∧ Gentle s ∧
    ∃ s', Sim.runNSteps sampleLibm 20 s [⟨10, 100, 20, 20, ⟨false, false, false, false⟩⟩] = .ok s' ∧
      0 < (s'.st 2).energyOutput_kWh := by
  decide +kernel

end HPWH
