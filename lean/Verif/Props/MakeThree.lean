import Verif.Props.MakeExample

/-! # C94: generic models fitted to several tests -/

namespace HPWH

open Spec _root_.HPWH.Units

variable {n k : ℕ}

/-- At the temperature of an entry only that entry matters. -/
theorem evaluate_entry {ps qs : PolySet} (hp : ProperPolys ps) (hq : ProperPolys qs) {j : ℕ} (hj : j < ps.length)
    (hj' : j < qs.length) (e : qs[j] = ps[j]) {T : ℚ} (hT : fahrenheit T = ps[j].T_F) (W : ℚ) :
    qs.evaluate T W = ps.evaluate T W := by
  obtain ⟨r, e1, a1, a2, a3⟩ := PolySet.C57_at hp j hj T W hT
  obtain ⟨r', e2, b1, b2, b3⟩ := PolySet.C57_at hq j hj' T W (by rw [e]; exact hT)
  rw [e1, e2]
  rw [e] at b1 b2
  obtain ⟨x, y, z⟩ := r
  obtain ⟨x', y', z'⟩ := r'
  simp only at a1 a2 a3 b1 b2 b3
  subst a1 a2 b1 b2
  rw [a3, b3]

theorem Spec.Equipped.alike {i : Fin k} {ps qs : PolySet} {s s1 s2 : Sim n k} (h1 : Equipped i ps s s1) {t : Sim n k}
    (h2 : Equipped i qs t s2) {T : ℚ} (h : ∀ W, qs.evaluate T W = ps.evaluate T W) : PerformsAlike i T s1 s2 := by
  obtain ⟨c, e, -, a2, a3⟩ := h1.pump
  obtain ⟨c', e', -, b2, b3⟩ := h2.pump
  refine ⟨_, _, by rw [a2], by rw [b2], fun sp W => ?_⟩
  exact Except.ok.inj ((a3 sp T W).symm.trans ((h W).symm.trans (b3 sp T W)))

theorem fitted_entry {m : Libm} {fuel limit : ℕ} {c : TestConditions} {d : Designation} {target : ℚ} {ps qs : PolySet}
    (hp : ProperPolys ps) {s s' : Sim n k} (h : Sim.makeGenericEF m fuel limit c d target ps s = .ok (s', qs))
    {a : ℕ} (ha : a < ps.length) (hT : ps[a].T_F = fahrenheit c.ambientT) :
    ∃ i x, (IsPump (s.cfg.src i) ∧ ∀ b < i, ¬IsPump (s.cfg.src b)) ∧ WithConstant ps a x qs ∧ Equipped i qs s s' := by
  obtain ⟨i, j, hj, x0, x, l, s1, h1, h2, h3, h4, h5, h6, h7, h8, h9⟩ := C93_fitted hp h
  have e : ps[j].T_F = ps[a].T_F := by
    have := h2 ps[a] (List.getElem_mem _)
    rw [hT, sub_self, abs_zero, abs_nonpos_iff, sub_eq_zero] at this
    rw [hT, this]
  have : j = a := by
    rcases lt_trichotomy j a with hl | rfl | hl
    · exact absurd e (PolySet.T_lt hp.increasing hl ha).ne
    · rfl
    · exact absurd e (PolySet.T_lt hp.increasing hl hj).ne'
  subst this
  exact ⟨i, x, h1, h4, h7⟩

theorem first_unique {s : Sim n k} {i j : Fin k} (hi : IsPump (s.cfg.src i) ∧ ∀ b < i, ¬IsPump (s.cfg.src b))
    (hj : IsPump (s.cfg.src j) ∧ ∀ b < j, ¬IsPump (s.cfg.src b)) : i = j := by
  rcases lt_trichotomy i j with h | h | h
  · exact absurd hi.1 (hj.2 i h)
  · exact h
  · exact absurd hj.1 (hi.2 j h)

theorem Spec.Equipped.isPump_iff {i : Fin k} {ps : PolySet} {s s' : Sim n k} (h : Equipped i ps s s') (j : Fin k) :
    IsPump (s'.cfg.src j) ↔ IsPump (s.cfg.src j) := by
  by_cases hj : j = i
  · subst hj
    exact ⟨fun _ => h.pump'.1, fun _ => h.pump'.2⟩
  · rw [h.others j hj]

theorem Spec.Equipped.first {i j : Fin k} {ps : PolySet} {s s' : Sim n k} (h : Equipped i ps s s')
    (hi : IsPump (s.cfg.src i) ∧ ∀ b < i, ¬IsPump (s.cfg.src b))
    (hj : IsPump (s'.cfg.src j) ∧ ∀ b < j, ¬IsPump (s'.cfg.src b)) : j = i := by
  refine first_unique (s := s) ⟨(h.isPump_iff j).mp hj.1, fun b hb hp => hj.2 b hb ((h.isPump_iff b).mpr hp)⟩ hi

/-- **C94.** Fitting to the three tests one after the other: each fit is that of a single test, of the heater as the last fit
left it, and is not disturbed by the later ones: under the conditions of each test the heat pump performs at the end as
after the fit to that test. The constants of the COP are all that has changed. -/
theorem C94_three {m : Libm} {fuel limit : ℕ} {d : Designation} {e50 uef e95 : ℚ} {ps qs : PolySet}
    (hp : ProperPolys ps) (hT : ps.map Poly.T_F = [50, 135 / 2, 95]) {s s' : Sim n k}
    (h : Sim.makeGenericThree m fuel limit d e50 uef e95 ps s = .ok (s', qs)) :
    ∃ i s1 s2 q1 q2 xs, (IsPump (s.cfg.src i) ∧ ∀ b < i, ¬IsPump (s.cfg.src b)) ∧
      Sim.makeGenericEF m fuel limit testConditionsE50 d e50 ps s = .ok (s1, q1) ∧
      Sim.makeGenericEF m fuel limit testConditionsUEF d uef q1 s1 = .ok (s2, q2) ∧
      Sim.makeGenericEF m fuel limit testConditionsE95 d e95 q2 s2 = .ok (s', qs) ∧
      WithConstants ps xs qs ∧ Equipped i qs s s' ∧
      PerformsAlike i testConditionsE50.externalT s1 s' ∧ PerformsAlike i testConditionsUEF.externalT s2 s' := by
  unfold Sim.makeGenericThree at h
  obtain ⟨⟨s1, q1⟩, h1, h⟩ := (bind_ok_iff _ _ _).mp h
  obtain ⟨⟨s2, q2⟩, h2, h3⟩ := (bind_ok_iff _ _ _).mp h
  dsimp only at h2 h3
  obtain ⟨p0, p1, p2, rfl⟩ : ∃ p0 p1 p2, ps = [p0, p1, p2] := by
    have := congrArg List.length hT
    rw [List.length_map] at this
    exact List.length_eq_three.mp this
  simp only [List.map_cons, List.map_nil, List.cons.injEq, and_true] at hT
  obtain ⟨t0, t1, t2⟩ := hT
  have f50 : fahrenheit testConditionsE50.ambientT = 50 := by decide +kernel
  have fuef : fahrenheit testConditionsUEF.ambientT = 135 / 2 := by decide +kernel
  have f95 : fahrenheit testConditionsE95.ambientT = 95 := by decide +kernel
  obtain ⟨i, x, hi, w1, g1⟩ := fitted_entry hp h1 (a := 0) (by simp) (by rw [f50]; exact t0)
  have hq1 := WithConstant.proper hp w1
  obtain ⟨l1, w1⟩ := w1
  simp only [List.length_cons, List.length_nil] at l1
  obtain ⟨a0, a1, a2, rfl⟩ := List.length_eq_three.mp l1
  obtain rfl : a0 = { p0 with cop := x :: p0.cop.tail } := w1 0 (by simp) (by simp)
  obtain rfl : a1 = p1 := w1 1 (by simp) (by simp)
  obtain rfl : a2 = p2 := w1 2 (by simp) (by simp)
  obtain ⟨i2, y, hi2, w2, g2⟩ := fitted_entry hq1 h2 (a := 1) (by simp) (by rw [fuef]; exact t1)
  obtain rfl := g1.first hi hi2
  have hq2 := WithConstant.proper hq1 w2
  obtain ⟨l2, w2⟩ := w2
  simp only [List.length_cons, List.length_nil] at l2
  obtain ⟨b0, b1, b2, rfl⟩ := List.length_eq_three.mp l2
  obtain rfl : b0 = { p0 with cop := x :: p0.cop.tail } := w2 0 (by simp) (by simp)
  obtain rfl : b1 = { a1 with cop := y :: a1.cop.tail } := w2 1 (by simp) (by simp)
  obtain rfl : b2 = a2 := w2 2 (by simp) (by simp)
  obtain ⟨i3, z, hi3, w3, g3⟩ := fitted_entry hq2 h3 (a := 2) (by simp) (by rw [f95]; exact t2)
  have g12 := g1.again g2
  obtain rfl := g12.first hi hi3
  have hq3 := WithConstant.proper hq2 w3
  obtain ⟨l3, w3⟩ := w3
  simp only [List.length_cons, List.length_nil] at l3
  obtain ⟨c0, c1, c2, rfl⟩ := List.length_eq_three.mp l3
  obtain rfl : c0 = { p0 with cop := x :: p0.cop.tail } := w3 0 (by simp) (by simp)
  obtain rfl : c1 = { a1 with cop := y :: a1.cop.tail } := w3 1 (by simp) (by simp)
  obtain rfl : c2 = { b2 with cop := z :: b2.cop.tail } := w3 2 (by simp) (by simp)
  refine ⟨_, s1, s2, _, _, [x, y, z], hi, h1, h2, h3, ⟨rfl, rfl, ?_⟩, g12.again g3, ?_, ?_⟩
  · intro l hl _ _
    match l, hl with
    | 0, _ => rfl
    | 1, _ => rfl
    | 2, _ => rfl
  · refine g1.alike (g12.again g3) fun W => ?_
    exact evaluate_entry hq1 hq3 (j := 0) (by simp) (by simp) rfl (by
      change fahrenheit testConditionsE50.ambientT = p0.T_F
      rw [f50, t0]) W
  · refine g2.alike (g12.again g3) fun W => ?_
    exact evaluate_entry hq2 hq3 (j := 1) (by simp) (by simp) rfl (by
      change fahrenheit testConditionsUEF.ambientT = a1.T_F
      rw [fuef, t1]) W

/-- **C94.** Fitting to the uniform energy factor: the heater is fitted to the one test, and then the COP at all other
temperatures is moved by as much. At the end it differs from that of the polynomials given by the same amount at all
temperatures. Under the conditions of the test the heat pump performs at the end as after the fit. -/
theorem C94_uniform {m : Libm} {fuel limit : ℕ} {d : Designation} {target : ℚ} {ps qs : PolySet} (hp : ProperPolys ps)
    (hT : (135 / 2 : ℚ) ∈ ps.map Poly.T_F) {s s' : Sim n k}
    (h : Sim.makeGenericUEF m fuel limit d target ps s = .ok (s', qs)) :
    ∃ i s1 q1 δ, (IsPump (s.cfg.src i) ∧ ∀ b < i, ¬IsPump (s.cfg.src b)) ∧
      Sim.makeGenericEF m fuel limit testConditionsUEF d target ps s = .ok (s1, q1) ∧
      Equipped i qs s s' ∧ s' = { s1 with cfg := s'.cfg } ∧
      PerformsAlike i testConditionsUEF.externalT s1 s' ∧
      ∀ T W, ∃ r r', ps.evaluate T W = .ok r ∧ qs.evaluate T W = .ok r' ∧ r'.cop = r.cop + δ ∧
        r'.inputPower_W = r.inputPower_W ∧ r'.outputPower_W = r'.cop * r'.inputPower_W := by
  unfold Sim.makeGenericUEF at h
  cases hf : s.firstCondenser with
  | none => rw [hf] at h; cases h
  | some i =>
  rw [hf] at h
  dsimp only at h
  obtain ⟨j, hj, h⟩ := (bind_ok_iff _ _ _).mp h
  obtain ⟨x0, hx0, h⟩ := (bind_ok_iff _ _ _).mp h
  obtain ⟨⟨s1, q1⟩, h1, h⟩ := (bind_ok_iff _ _ _).mp h
  obtain ⟨x1, hx1, h⟩ := (bind_ok_iff _ _ _).mp h
  obtain ⟨qs', hqs, h⟩ := (bind_ok_iff _ _ _).mp h
  simp only [pure, Except.pure, Except.ok.injEq, Prod.mk.injEq] at h
  obtain ⟨rfl, rfl⟩ := h
  dsimp only at hx1 hqs ⊢
  have hi := firstCondenser_some hf
  -- the polynomials
  have hpoly : ∃ s0, PolySet.makeGenericUEF (Sim.efTest m fuel limit testConditionsUEF d i)
      (s.polysAt i testConditionsUEF.ambientT) (s.maxSetpointOf i) testConditionsUEF.ambientT target ps s = .ok (qs', s0) := by
    unfold Sim.makeGenericEF at h1
    rw [hf] at h1
    dsimp only at h1
    obtain ⟨⟨a, s0⟩, h2, h1⟩ := (bind_ok_iff _ _ _).mp h1
    obtain ⟨-, rfl⟩ := Prod.mk.inj (Except.ok.inj h1)
    refine ⟨s0, ?_⟩
    unfold PolySet.makeGenericUEF
    rw [bind_ok_iff]
    refine ⟨j, hj, ?_⟩
    rw [bind_ok_iff]
    refine ⟨x0, hx0, ?_⟩
    rw [bind_ok_iff]
    refine ⟨_, h2, ?_⟩
    rw [bind_ok_iff]
    refine ⟨x1, hx1, ?_⟩
    rw [bind_ok_iff]
    exact ⟨qs', hqs, rfl⟩
  obtain ⟨s0, hpoly⟩ := hpoly
  obtain ⟨δ, hδ⟩ := PolySet.C67_generic_uef hp hpoly
  -- the entry
  obtain ⟨p, hpm, hpT⟩ := List.mem_map.mp hT
  obtain ⟨a, ha, rfl⟩ := List.getElem_of_mem hpm
  have fuef : fahrenheit testConditionsUEF.ambientT = 135 / 2 := by decide +kernel
  obtain ⟨i', x, hi', w, g⟩ := fitted_entry hp h1 ha (by rw [fuef]; exact hpT)
  obtain rfl := first_unique hi' hi
  have hq1 := WithConstant.proper hp w
  obtain ⟨j', hj', e', near⟩ := PolySet.C57_nearest hp.increasing (by intro h0; rw [h0] at ha; simp at ha)
    testConditionsUEF.ambientT
  rw [hj] at e'
  obtain rfl := Except.ok.inj e'
  have eja : j = a := by
    have e := near ps[a] (List.getElem_mem _)
    rw [fuef, hpT, sub_self, abs_zero, abs_nonpos_iff, sub_eq_zero, ← hpT] at e
    rcases lt_trichotomy j a with hl | rfl | hl
    · exact absurd e.symm (PolySet.T_lt hp.increasing hl ha).ne
    · rfl
    · exact absurd e (PolySet.T_lt hp.increasing hl hj').ne
  subst eja
  obtain ⟨l1, l2⟩ := PolySet.addOthers_ok hqs
  have hlen : q1.length = ps.length := w.1
  have hq : ProperPolys qs' := by
    refine ⟨by rw [l1]; exact hq1.two, ?_, ?_⟩
    · rw [List.pairwise_iff_getElem]
      intro a b ha hb hab
      have t : ∀ l (h : l < q1.length) (h' : l < qs'.length), qs'[l].T_F = q1[l].T_F := by
        intro l h h'
        rw [l2 l h h']
        split <;> rfl
      rw [t a (by omega) ha, t b (by omega) hb]
      exact List.pairwise_iff_getElem.mp hq1.increasing a b _ _ hab
    · intro q hqm
      obtain ⟨l, hl, rfl⟩ := List.getElem_of_mem hqm
      have c := hq1.coefficients q1[l] (List.getElem_mem _)
      rw [l2 l (by omega) hl]
      split
      · exact c
      · refine ⟨c.1, ?_⟩
        unfold PolySet.Spec.raised
        have c2 := c.2
        cases hc : q1[l].cop with
        | nil => rw [hc] at c2; simp at c2
        | cons y ys => rw [hc] at c2; simpa using c2
  obtain ⟨v1, v2⟩ := withPolys_equipped g.pump'.2 hq
  refine ⟨_, s1, q1, δ, hi, h1, g.again v1, v2, ?_, hδ⟩
  refine g.alike v1 fun W => ?_
  have hjq : j < q1.length := by omega
  refine evaluate_entry hq1 hq hjq (by omega) ?_ ?_ W
  · rw [l2 j hjq (by omega), if_pos (by omega)]
  · change fahrenheit testConditionsUEF.ambientT = _
    rw [fuef, ← hpT, w.2 j ha hjq, if_pos rfl]

/-! A heat pump is fitted to the energy factors it has in the three tests. -/

theorem pump_minutesE50 : PumpMinutes testConditionsE50 pumpPolys (98921781269 / 1996368000) ∧
    PumpMinutes testConditionsE50 (pumpPolys.setCop0 0 (3 + 1 / 10 ^ 9)) (2473044531821 / 49909200000) := by
  constructor <;> constructor <;> decide +kernel

theorem pump_minutesE95 : PumpMinutes testConditionsE95 pumpPolys (3843389936801 / 74863800000) ∧
    PumpMinutes testConditionsE95 (pumpPolys.setCop0 2 (3 + 1 / 10 ^ 9)) (768677987389 / 14972760000) := by
  constructor <;> constructor <;> decide +kernel

theorem pump_fitsE50 : ∃ target, ∀ s, Pumped s → ∃ s', Sim.makeGenericEF sampleLibm 5 100 testConditionsE50 .verySmall target
    pumpPolys s = .ok (s', pumpPolys) ∧ Pumped s' := by
  have e : pumpPolys.setCop0 0 3 = pumpPolys := by decide +kernel
  obtain ⟨target, h⟩ := pump_fitOne e pump_minutesE50.1 pump_minutesE50.2
  refine ⟨target, fun s hs => ?_⟩
  obtain ⟨s', hf, ⟨c', ps', l⟩, -⟩ := h s hs
  exact ⟨_, pump_makes hs e hf (by decide +kernel) (by decide +kernel) (by decide +kernel) (by decide +kernel),
    ⟨c', _, l.withPolys c' pumpPolys⟩⟩

theorem pump_fitsE95 : ∃ target, ∀ s, Pumped s → ∃ s', Sim.makeGenericEF sampleLibm 5 100 testConditionsE95 .verySmall target
    pumpPolys s = .ok (s', pumpPolys) ∧ Pumped s' := by
  have e : pumpPolys.setCop0 2 3 = pumpPolys := by decide +kernel
  obtain ⟨target, h⟩ := pump_fitOne e pump_minutesE95.1 pump_minutesE95.2
  refine ⟨target, fun s hs => ?_⟩
  obtain ⟨s', hf, ⟨c', ps', l⟩, -⟩ := h s hs
  exact ⟨_, pump_makes hs e hf (by decide +kernel) (by decide +kernel) (by decide +kernel) (by decide +kernel),
    ⟨c', _, l.withPolys c' pumpPolys⟩⟩

/-- The hypotheses of `C94_three` are met. -/
example : pumpPolys.map Poly.T_F = [50, 135 / 2, 95] ∧ ProperPolys pumpPolys ∧
    ∃ e50 uef e95 s', Sim.makeGenericThree sampleLibm 5 100 .verySmall e50 uef e95 pumpPolys
      (pumpState testConditionsUEF pumpPolys (155 / 3) false) = .ok (s', pumpPolys) := by
  refine ⟨by decide +kernel, pumpPolys_proper, ?_⟩
  obtain ⟨e50, h1⟩ := pump_fitsE50
  obtain ⟨uef, h2⟩ := pump_fits
  obtain ⟨e95, h3⟩ := pump_fitsE95
  obtain ⟨s1, a1, b1⟩ := h1 _ ⟨_, _, PumpLike.refl testConditionsUEF pumpPolys (155 / 3) false⟩
  obtain ⟨s2, a2, b2, -⟩ := h2 _ b1
  obtain ⟨s3, a3, -⟩ := h3 _ b2
  refine ⟨e50, uef, e95, s3, ?_⟩
  unfold Sim.makeGenericThree
  exact (bind_ok_iff _ _ _).mpr ⟨_, a1, (bind_ok_iff _ _ _).mpr ⟨_, a2, a3⟩⟩

/-- The hypotheses of `C94_uniform` are met. -/
example : (135 / 2 : ℚ) ∈ pumpPolys.map Poly.T_F ∧ ProperPolys pumpPolys ∧
    ∃ target s', Sim.makeGenericUEF sampleLibm 5 100 .verySmall target pumpPolys
      (pumpState testConditionsUEF pumpPolys (155 / 3) false) = .ok (s', pumpPolys) := by
  refine ⟨by decide +kernel, pumpPolys_proper, ?_⟩
  obtain ⟨target, h⟩ := pump_fits
  obtain ⟨s1, a1, -⟩ := h _ ⟨_, _, PumpLike.refl testConditionsUEF pumpPolys (155 / 3) false⟩
  have hf := (Pumped.facts ⟨_, _, PumpLike.refl testConditionsUEF pumpPolys (155 / 3) false⟩ pumpPolys 0 0).1
  refine ⟨target, s1.withPolys 0 pumpPolys, ?_⟩
  unfold Sim.makeGenericUEF
  rw [hf]
  dsimp only
  refine (bind_ok_iff _ _ _).mpr ⟨1, by decide +kernel, (bind_ok_iff _ _ _).mpr ⟨3, by decide +kernel,
    (bind_ok_iff _ _ _).mpr ⟨_, a1, (bind_ok_iff _ _ _).mpr ⟨3, by dsimp only; decide +kernel, (bind_ok_iff _ _ _).mpr
      ⟨pumpPolys, by dsimp only; decide +kernel, rfl⟩⟩⟩⟩⟩

/-- **C94.** Without a heat pump there is nothing to fit, and an error is reported. -/
theorem C94_no_pump (m : Libm) (fuel limit : ℕ) (d : Designation) (e50 uef e95 : ℚ) (ps : PolySet) (s : Sim n k)
    (h : ∀ j, ¬IsPump (s.cfg.src j)) :
    Sim.makeGenericUEF m fuel limit d uef ps s = .error .error ∧
      Sim.makeGenericThree m fuel limit d e50 uef e95 ps s = .error .error := by
  constructor
  · unfold Sim.makeGenericUEF
    rw [firstCondenser_none h]
  · unfold Sim.makeGenericThree
    rw [C93_no_pump _ _ _ _ _ _ _ _ h]
    rfl

/-- **C93.** The polynomials `make` starts with for tier 3 are those of the built-in generic models of tier 3; for any other
number, those of tier 4. -/
theorem C93_tier_models :
    (∀ p ∈ [Presets.AWHSTier3Generic40, Presets.AWHSTier3Generic50, Presets.AWHSTier3Generic65,
      Presets.AWHSTier3Generic80], ∃ i, (p.src i).perf = .polys (tierPolys 3)) ∧
    ∀ tier : ℤ, tier ≠ 3 → ∀ p ∈ [Presets.AWHSTier4Generic40, Presets.AWHSTier4Generic50, Presets.AWHSTier4Generic65,
      Presets.AWHSTier4Generic80], ∃ i, (p.src i).perf = .polys (tierPolys tier) := by
  constructor
  · intro p hp
    simp only [List.mem_cons, List.not_mem_nil, or_false] at hp
    rcases hp with rfl | rfl | rfl | rfl <;> exact ⟨(2 : Fin 3), rfl⟩
  · intro tier ht p hp
    have e : tierPolys tier = tier4 := if_neg ht
    rw [e]
    simp only [List.mem_cons, List.not_mem_nil, or_false] at hp
    rcases hp with rfl | rfl | rfl | rfl <;> exact ⟨(2 : Fin 3), rfl⟩

/-- **C94.** The polynomials of both tiers have entries at the temperatures of the three tests. -/
theorem C94_tiers (tier : ℤ) : (tierPolys tier).map Poly.T_F = [50, 135 / 2, 95] := by
  unfold tierPolys
  split <;> decide +kernel

end HPWH
