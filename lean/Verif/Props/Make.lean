import Verif.Spec.Make
import Verif.Props.Commands
import Verif.Props.Generic
import Verif.Props.DayExample

/-! # C93: the `make` command -/

namespace HPWH

open Spec _root_.HPWH.Units

variable {n k : ℕ}

/-! ## The search -/

namespace Fit

open Fit.Spec

variable {σ : Type}

theorem evaluates_append {metric : Metric σ} {s s1 s2 : σ} {l l' : List (ℚ × ℚ)} (h : Evaluates metric s l s1)
    (h' : Evaluates metric s1 l' s2) : Evaluates metric s (l ++ l') s2 := by
  induction h with
  | nil => exact h'
  | cons h1 _ ih => exact .cons h1 (ih h')

theorem secantLoop_trace {metric : Metric σ} (f : ℚ) :
    ∀ (room i : ℕ) (x1 f1 x2 f2 param : ℚ) (s : σ) (o : Outcome σ), 0 < i →
    secantLoop metric f (f + 1 / 10 ^ 12) (f - 1 / 10 ^ 12) room i x1 f1 x2 f2 param s = .ok o → 0 ≤ o.code →
    ∃ l, Evaluates metric s l o.state ∧ l.length ≤ room ∧
      ((l = [] ∧ o.param = param ∧ (Meets f f1 ∨ room = 0)) ∨
        ∃ v, l.getLast? = some (o.param, v) ∧ (Meets f v ∨ l.length = room)) := by
  intro room
  induction room with
  | zero =>
    intro i x1 f1 x2 f2 param s o hi h hc
    obtain rfl := Except.ok.inj h
    exact ⟨[], .nil _, le_rfl, .inl ⟨rfl, rfl, .inr rfl⟩⟩
  | succ room ih =>
    intro i x1 f1 x2 f2 param s o hi h hc
    rw [secantLoop] at h
    by_cases hm : f1 ≤ f + 1 / 10 ^ 12 ∧ f1 ≥ f - 1 / 10 ^ 12
    · rw [if_pos hm] at h
      obtain rfl := Except.ok.inj h
      exact ⟨[], .nil _, by simp, .inl ⟨rfl, rfl, .inl (meets_iff.mp hm)⟩⟩
    · rw [if_neg hm] at h
      by_cases hz : |f1 - f2| < 1 / 10 ^ 20
      · rw [if_pos hz] at h
        obtain rfl := Except.ok.inj h
        exact absurd hc (by simp; omega)
      · rw [if_neg hz, bind_ok_iff] at h
        obtain ⟨r, hr, h⟩ := h
        obtain ⟨l, a1, a2, a3⟩ := ih (i + 1) _ _ _ _ _ _ o (by omega) h hc
        refine ⟨(x1 + (x2 - x1) * (f - f1) / (f2 - f1), r.1) :: l, .cons hr a1, by simpa using a2, .inr ?_⟩
        rcases a3 with ⟨rfl, e, a3⟩ | ⟨v, e, a3⟩
        · refine ⟨r.1, by rw [e]; rfl, ?_⟩
          rcases a3 with a3 | rfl
          · exact .inl a3
          · exact .inr rfl
        · refine ⟨v, ?_, by simpa using a3⟩
          rw [List.getLast?_cons, e]
          rfl

/-- **C93.** What the one-parameter fit does, for a metric that may depend on the state left by its earlier evaluations as the
24-hour test does: the evaluations it makes and how they lead to its result. -/
theorem C93_fit {metric : Metric σ} {target step x0 x : ℚ} {s s' : σ}
    (h : fitOne metric target step x0 s = .ok (x, s')) :
    ∃ l, Evaluates metric s l s' ∧ SearchEnds (Meets target) x0 step x l := by
  unfold fitOne at h
  rw [bind_ok_iff] at h
  obtain ⟨⟨v0, s0⟩, h0, h⟩ := h
  rw [bind_ok_iff] at h
  obtain ⟨⟨v1, s1⟩, h1, h⟩ := h
  rw [bind_ok_iff] at h
  obtain ⟨o, ho, h⟩ := h
  by_cases hc : o.code < 0
  · rw [if_pos hc] at h
    cases h
  rw [if_neg hc] at h
  obtain ⟨rfl, rfl⟩ := Prod.mk.inj (Except.ok.inj h)
  have hc : 0 ≤ o.code := not_lt.mp hc
  unfold secant at ho
  simp only [if_pos (by norm_num : (1 / 10 ^ 12 : ℚ) ≥ 0)] at ho
  rw [bind_ok_iff] at ho
  obtain ⟨⟨f1, p1, t1⟩, e1, ho⟩ := ho
  have g1 : ∃ l, Evaluates metric s1 l t1 ∧ l.length ≤ 1 ∧ p1 = x0 ∧
      ∃ e ∈ (x0, v0) :: (x0 + step, v1) :: l, e.1 = x0 ∧ e.2 = f1 := by
    split_ifs at e1
    · rw [bind_ok_iff] at e1
      obtain ⟨r, hr, e1⟩ := e1
      simp only [Except.ok.injEq, Prod.mk.injEq] at e1
      obtain ⟨rfl, rfl, rfl⟩ := e1
      exact ⟨[(x0, r.1)], .cons hr (.nil _), le_rfl, rfl, (x0, r.1), by simp, rfl, rfl⟩
    · simp only [Except.ok.injEq, Prod.mk.injEq] at e1
      obtain ⟨rfl, rfl, rfl⟩ := e1
      exact ⟨[], .nil _, by simp, rfl, (x0, v0), by simp, rfl, rfl⟩
  obtain ⟨l1, b1, b2, rfl, e, he, b3, b4⟩ := g1
  have first : Evaluates metric s ((p1, v0) :: (p1 + step, v1) :: l1) t1 := .cons h0 (.cons h1 b1)
  by_cases hm : f1 ≤ target + 1 / 10 ^ 12 ∧ f1 ≥ target - 1 / 10 ^ 12
  · rw [if_pos hm] at ho
    obtain rfl := Except.ok.inj ho
    refine ⟨_, first, ⟨v0, v1, l1, rfl⟩, by simp only [List.length_cons]; omega, .inr (.inl ⟨rfl, e, he, ?_, .inl b3⟩)⟩
    rw [b4]
    exact meets_iff.mp hm
  rw [if_neg hm, bind_ok_iff] at ho
  obtain ⟨⟨f2, p2, t2⟩, e2, ho⟩ := ho
  have g2 : ∃ l, Evaluates metric t1 l t2 ∧ l.length ≤ 1 ∧
      ((l = [] ∧ p2 = p1 ∧ f2 = v1) ∨ (l = [(p1 + step, f2)] ∧ p2 = p1 + step)) := by
    dsimp only at e2
    split_ifs at e2
    · rw [bind_ok_iff] at e2
      obtain ⟨r, hr, e2⟩ := e2
      simp only [Except.ok.injEq, Prod.mk.injEq] at e2
      obtain ⟨rfl, rfl, rfl⟩ := e2
      exact ⟨[(p1 + step, r.1)], .cons hr (.nil _), le_rfl, .inr ⟨rfl, rfl⟩⟩
    · simp only [Except.ok.injEq, Prod.mk.injEq] at e2
      obtain ⟨rfl, rfl, rfl⟩ := e2
      exact ⟨[], .nil _, by simp, .inl ⟨rfl, rfl, rfl⟩⟩
  obtain ⟨l2, c1, c2, c3⟩ := g2
  have second := evaluates_append first c1
  have main : ∃ l, Evaluates metric t2 l o.state ∧ l.length ≤ 19 ∧
      ((l = [] ∧ o.param = p2 ∧ Meets target f2) ∨
        ∃ v, l.getLast? = some (o.param, v) ∧ (Meets target v ∨ l.length = 19)) := by
    unfold secantSearch at ho
    split_ifs at ho
    · obtain ⟨l, d1, d2, d3⟩ := secantLoop_trace target 19 1 _ _ _ _ _ _ o one_pos ho hc
      refine ⟨l, d1, d2, ?_⟩
      rcases d3 with ⟨rfl, d3, d4 | d4⟩ | d3
      · exact .inl ⟨rfl, d3, d4⟩
      · cases d4
      · exact .inr d3
    · obtain ⟨l, d1, d2, d3⟩ := secantLoop_trace target 19 1 _ _ _ _ _ _ o one_pos ho hc
      refine ⟨l, d1, d2, ?_⟩
      rcases d3 with ⟨rfl, d3, d4 | d4⟩ | d3
      · exact absurd (meets_iff.mpr d4) hm
      · cases d4
      · exact .inr d3
  obtain ⟨l, d1, d2, d3⟩ := main
  refine ⟨_, evaluates_append second d1, ⟨v0, v1, l1 ++ l2 ++ l, rfl⟩, ?_, ?_⟩
  · simp only [List.length_append, List.length_cons]
    omega
  rcases d3 with ⟨rfl, d3, d4⟩ | ⟨v, d3, d4⟩
  · rcases c3 with ⟨rfl, rfl, rfl⟩ | ⟨rfl, rfl⟩
    · exact .inr (.inl ⟨d3, (p2 + step, f2), by simp, d4, .inr rfl⟩)
    · refine .inl ⟨f2, ?_, d4⟩
      rw [List.append_nil, List.getLast?_append, d3]
      rfl
  · rcases d4 with d4 | d4
    · refine .inl ⟨v, ?_, d4⟩
      rw [List.getLast?_append, d3]
      rfl
    · right; right
      simp only [List.length_append, List.length_cons]
      omega

/-- Two steps of the search find where a metric that counts its evaluations and adds a little for each meets a target. -/
example : ∃ r, fitOne (σ := ℕ) (fun x s => .ok (2 * x + 1 / 10 ^ 13 * s, s + 1)) 10 1 1 0 = .ok r ∧
    r.2 = 3 ∧ 4 < r.1 ∧ r.1 < 6 := by decide +kernel

end Fit

/-! ## The heat pump that is fitted -/

theorem WithConstant.proper {ps qs : PolySet} {j : ℕ} {x : ℚ} (hp : ProperPolys ps) (h : WithConstant ps j x qs) :
    ProperPolys qs := by
  obtain ⟨h1, h2⟩ := h
  have e : ∀ l (h : l < ps.length) (h' : l < qs.length), qs[l].T_F = ps[l].T_F ∧ qs[l].input = ps[l].input ∧
      3 ≤ qs[l].cop.length := by
    intro l hl hl'
    have c := (hp.coefficients ps[l] (List.getElem_mem _)).2
    rw [h2 l hl hl']
    split
    · refine ⟨rfl, rfl, ?_⟩
      rw [List.length_cons, List.length_tail]
      omega
    · exact ⟨rfl, rfl, c⟩
  refine ⟨by rw [h1]; exact hp.two, ?_, ?_⟩
  · rw [List.pairwise_iff_getElem]
    intro a b ha hb hab
    rw [(e a (by omega) ha).1, (e b (by omega) hb).1]
    exact List.pairwise_iff_getElem.mp hp.increasing a b _ _ hab
  · intro q hq
    obtain ⟨l, hl, rfl⟩ := List.getElem_of_mem hq
    obtain ⟨-, e2, e3⟩ := e l (by omega) hl
    rw [e2]
    exact ⟨(hp.coefficients _ (List.getElem_mem _)).1, e3⟩

theorem setCop0_constant {ps : PolySet} {j : ℕ} {x0 : ℚ} (x : ℚ) (h : ps.cop0 j = .ok x0) :
    WithConstant ps j x (ps.setCop0 j x) := by
  obtain ⟨hj, cs, hcs⟩ := PolySet.cop0_ok h
  obtain ⟨g1, g2⟩ := PolySet.setCop0_getElem (x := x) hj
  refine ⟨g1, fun l hl hl' => ?_⟩
  rw [g2 l hl hl']
  split
  · rename_i e
    subst e
    rw [hcs]
    rfl
  · rfl

theorem make_evaluate {ps : PolySet} (hp : ProperPolys ps) (sp T W : ℚ) : ps.evaluate T W = .ok (ps.make sp T W) := by
  obtain ⟨a, ha, r, hr, -⟩ := PolySet.evaluate_spec hp T W
  unfold PolySet.make
  rw [hr]

theorem withPolys_equipped {s : Sim n k} {i : Fin k} (hi : IsPump (s.cfg.src i)) {ps : PolySet} (hp : ProperPolys ps) :
    Equipped i ps s (s.withPolys i ps) ∧ s.withPolys i ps = { s with cfg := (s.withPolys i ps).cfg } := by
  obtain ⟨b, hb⟩ := hi
  have e : s.withPolys i ps = { s with cfg := { s.cfg with src := Function.update s.cfg.src i { s.cfg.src i with
      kind := .condenser { b with evaluate := ps.make } } } } := by
    unfold Sim.withPolys
    rw [hb]
  rw [e]
  refine ⟨⟨fun j hj => Function.update_of_ne hj _ _, ⟨b, ps.make, hb, Function.update_self _ _ _, make_evaluate hp⟩, rfl⟩, rfl⟩

theorem Spec.Equipped.of_cfg {i : Fin k} {ps : PolySet} {s s' t t' : Sim n k} (h : Equipped i ps s s') (e : t.cfg = s.cfg)
    (e' : t'.cfg = s'.cfg) : Equipped i ps t t' := by
  obtain ⟨h1, h2, h3⟩ := h
  rw [← e] at h1 h2 h3
  rw [← e'] at h1 h2 h3
  exact ⟨h1, h2, h3⟩

theorem Spec.Equipped.pump' {i : Fin k} {ps : PolySet} {s s' : Sim n k} (h : Equipped i ps s s') :
    IsPump (s.cfg.src i) ∧ IsPump (s'.cfg.src i) := by
  obtain ⟨c, e, h1, h2, -⟩ := h.pump
  exact ⟨⟨c, h1⟩, ⟨_, by rw [h2]⟩⟩

theorem Spec.Equipped.again {i : Fin k} {ps qs : PolySet} {s s1 s2 : Sim n k} (h : Equipped i ps s s1) (h' : Equipped i qs s1 s2) :
    Equipped i qs s s2 := by
  refine ⟨fun j hj => (h'.others j hj).trans (h.others j hj), ?_, ?_⟩
  · obtain ⟨c, e, a1, a2, -⟩ := h.pump
    obtain ⟨c', e', b1, b2, b3⟩ := h'.pump
    refine ⟨c, e', a1, ?_, b3⟩
    rw [a2] at b1
    obtain rfl := SourceKind.condenser.inj b1
    rw [b2, a2]
  · rw [h'.rest]
    have := h.rest
    generalize s1.cfg.src = c at this
    rw [this]

/-- The settings are those of `s`, or those with the heat pump fitted. -/
def Sim.Refit (i : Fin k) (s s' : Sim n k) : Prop := s'.cfg = s.cfg ∨ ∃ ps, Equipped i ps s s'

theorem Sim.Refit.equipped {i : Fin k} {s s1 s2 : Sim n k} (h : Sim.Refit i s s1) {ps : PolySet} (h' : Equipped i ps s1 s2) :
    Equipped i ps s s2 := by
  rcases h with h | ⟨qs, h⟩
  · exact h'.of_cfg h.symm rfl
  · exact h.again h'

theorem Sim.Refit.pump {i : Fin k} {s s1 : Sim n k} (h : Sim.Refit i s s1) (hi : IsPump (s.cfg.src i)) :
    IsPump (s1.cfg.src i) := by
  rcases h with h | ⟨qs, h⟩
  · rw [h]; exact hi
  · exact h.pump'.2

theorem trials_of {m : Libm} {fuel limit : ℕ} {c : TestConditions} {d : Designation} {i : Fin k} {ps : PolySet} {j : ℕ}
    {x0 : ℚ} (hp : ProperPolys ps) (hj : ps.cop0 j = .ok x0) {s : Sim n k} (hi : IsPump (s.cfg.src i)) {s1 s2 : Sim n k}
    {l : List (ℚ × ℚ)} (h : Evaluates (fun x s => Sim.efTest m fuel limit c d i (ps.setCop0 j x) s) s1 l s2)
    (hs : Sim.Refit i s s1) : Trials m fuel limit c d i ps j s1 l s2 ∧ Sim.Refit i s s2 := by
  induction h with
  | nil => exact ⟨.nil _, hs⟩
  | @cons x v t t1 l t2 h1 _ ih =>
    unfold Sim.efTest at h1
    rw [bind_ok_iff] at h1
    obtain ⟨⟨t', r⟩, hr, h1⟩ := h1
    obtain ⟨rfl, rfl⟩ := Prod.mk.inj (Except.ok.inj h1)
    have hw := setCop0_constant x hj
    obtain ⟨e1, e2⟩ := withPolys_equipped (hs.pump hi) (WithConstant.proper hp hw)
    have hc := run24hrTest_cfg hr
    obtain ⟨i1, i2⟩ := ih (.inr ⟨_, (hs.equipped e1).of_cfg rfl hc⟩)
    exact ⟨.cons hw e1 e2 hr i1, i2⟩

theorem firstCondenser_some {s : Sim n k} {i : Fin k} (h : s.firstCondenser = some i) :
    IsPump (s.cfg.src i) ∧ ∀ j < i, ¬IsPump (s.cfg.src j) := by
  unfold Sim.firstCondenser at h
  rw [List.find?_eq_some_iff_getElem] at h
  obtain ⟨h1, a, ha, h2, h3⟩ := h
  refine ⟨?_, fun j hj => ?_⟩
  · cases hk : (s.cfg.src i).kind with
    | condenser b => exact ⟨b, hk⟩
    | resistance P => rw [hk] at h1; cases h1
  · rintro ⟨b, hb⟩
    have hai : a = i.val := by rw [← h2]; simp
    have := h3 j.val (by rw [hai]; exact hj)
    simp only [List.getElem_finRange, Fin.cast_mk, Fin.eta, hb] at this
    cases this

theorem firstCondenser_none {s : Sim n k} (h : ∀ j, ¬IsPump (s.cfg.src j)) : s.firstCondenser = none := by
  unfold Sim.firstCondenser
  rw [List.find?_eq_none]
  intro j _
  cases hk : (s.cfg.src j).kind with
  | condenser b => exact absurd ⟨b, hk⟩ (h j)
  | resistance P => simp

/-- **C93.** A heat pump fitted to an energy factor: the polynomials given, with the constant of the COP changed in the one
entry whose temperature is nearest to that of the test's surroundings, become the performance of the first heat pump, and no
other setting changes. The constant was found by 24-hour tests of the heater itself. At the end the COP is not negative at
the heat pump's largest setpoint, and not smaller at 0 °C. -/
theorem C93_fitted {m : Libm} {fuel limit : ℕ} {c : TestConditions} {d : Designation} {target : ℚ} {ps qs : PolySet}
    (hp : ProperPolys ps) {s s' : Sim n k}
    (h : Sim.makeGenericEF m fuel limit c d target ps s = .ok (s', qs)) :
    ∃ (i : Fin k) (j : ℕ) (hj : j < ps.length) (x0 x : ℚ) (l : List (ℚ × ℚ)) (s1 : Sim n k),
      (IsPump (s.cfg.src i) ∧ ∀ a < i, ¬IsPump (s.cfg.src a)) ∧
      (∀ q ∈ ps, |fahrenheit c.ambientT - ps[j].T_F| ≤ |fahrenheit c.ambientT - q.T_F|) ∧
      ps[j].cop.head? = some x0 ∧ WithConstant ps j x qs ∧
      Trials m fuel limit c d i ps j s l s1 ∧ SearchEnds (Fit.Spec.Meets target) x0 (1 / 10 ^ 9) x l ∧
      Equipped i qs s s' ∧ s' = { s1 with cfg := s'.cfg } ∧
      ∃ b p1 p0, (s'.cfg.src i).kind = .condenser b ∧
        (∀ setpoint, b.getPerformance (s'.cfg.src i).airflowFreedom setpoint c.ambientT b.maxSetpoint = .ok p1) ∧
        (∀ setpoint, b.getPerformance (s'.cfg.src i).airflowFreedom setpoint c.ambientT 0 = .ok p0) ∧
        0 ≤ p1.cop ∧ p1.cop ≤ p0.cop := by
  unfold Sim.makeGenericEF at h
  cases hf : s.firstCondenser with
  | none => rw [hf] at h; cases h
  | some i =>
    rw [hf] at h
    dsimp only at h
    rw [bind_ok_iff] at h
    obtain ⟨⟨qs', s1⟩, h, e⟩ := h
    obtain ⟨rfl, rfl⟩ := Prod.mk.inj (Except.ok.inj e)
    obtain ⟨hi, hfirst⟩ := firstCondenser_some hf
    obtain ⟨j, x0, x, hj, hx0, rfl, hfit, p1, p0, h1, h0, g1, g0⟩ := PolySet.makeGenericEF_ok h
    obtain ⟨hjl, cs, hcs⟩ := PolySet.cop0_ok hx0
    obtain ⟨j', hj', e1, near⟩ := PolySet.C57_nearest hp.increasing (by intro h; rw [h] at hjl; simp at hjl) c.ambientT
    rw [e1] at hj
    obtain rfl := Except.ok.inj hj
    obtain ⟨l, hl, hend⟩ := Fit.C93_fit hfit
    obtain ⟨ht, hre⟩ := trials_of hp hx0 hi hl (.inl rfl)
    have hw := setCop0_constant x hx0
    have hq := WithConstant.proper hp hw
    obtain ⟨q1, q2⟩ := withPolys_equipped (hre.pump hi) hq
    have q3 := hre.equipped q1
    refine ⟨i, j', hjl, x0, x, l, s1, ⟨hi, hfirst⟩, near, by rw [hcs]; rfl, hw, ht, hend, q3, q2, ?_⟩
    obtain ⟨b, hb⟩ := hi
    have r1 : s.maxSetpointOf i = b.maxSetpoint := by unfold Sim.maxSetpointOf; rw [hb]
    have r2 : ∀ T, s.polysAt i c.ambientT (ps.setCop0 j' x) T = ({ b with evaluate := (ps.setCop0 j' x).make } :
        CondCfg).getPerformance (s.cfg.src i).airflowFreedom s.setpoint c.ambientT T := by
      intro T
      unfold Sim.polysAt Sim.withPolys
      rw [hb]
      simp only [Function.update_self]
    rw [r2] at h1 h0
    rw [r1] at h1
    obtain ⟨b', ev, t1, t2, t3⟩ := q3.pump
    rw [hb] at t1
    obtain rfl := SourceKind.condenser.inj t1
    have t4 : ev = (ps.setCop0 j' x).make := by
      funext a T W
      exact Except.ok.inj ((t3 a T W).symm.trans (make_evaluate hq a T W))
    subst t4
    rw [t2]
    exact ⟨_, p1, p0, rfl, fun _ => h1, fun _ => h0, g1, g0⟩

/-- **C93.** Without a heat pump there is nothing to fit, and an error is reported. -/
theorem C93_no_pump (m : Libm) (fuel limit : ℕ) (c : TestConditions) (d : Designation) (target : ℚ) (ps : PolySet)
    (s : Sim n k) (h : ∀ j, ¬IsPump (s.cfg.src j)) :
    Sim.makeGenericEF m fuel limit c d target ps s = .error .error := by
  unfold Sim.makeGenericEF
  rw [firstCondenser_none h]

example : ∀ j, ¬IsPump (daySim.cfg.src j) := by
  rintro j ⟨b, h⟩
  cases h

/-- **C93.** The polynomials `make` starts with, for any `tier`, are proper. -/
theorem C93_tiers (tier : ℤ) : ProperPolys (tierPolys tier) := by
  unfold tierPolys
  split
  · exact ⟨by decide +kernel, by decide +kernel, by decide +kernel⟩
  · exact ⟨by decide +kernel, by decide +kernel, by decide +kernel⟩

/-! ## The command -/

/-- **C93.** What `make` reports: the 24-hour test, with the profile and the conditions named, of the heater it has fitted to
the target; where its report goes, and where the model it has made. The test is one more after those of the search. -/
theorem C93_command (m : Libm) (fuel limit : ℕ) (order : List Designation) (hall : ∀ d, d ∈ order) (a : MeasureArgs)
    (target : ℚ) (ps : PolySet) (hp : ProperPolys ps) (s : Sim n k) (r : Made n k)
    (h : make m fuel limit order a target ps s = .ok r) :
    (∃ (d : Designation) (s0 s1 : Sim n k),
      ((a.drawProfileName ≠ [] ∧ r.rating = none ∧ SameWords (ProfileName d).toList a.drawProfileName ∧ s0 = s) ∨
        (a.drawProfileName = [] ∧ ∃ volume, Sim.findFirstHourRating m fuel limit s = .ok (s0, volume, d) ∧
          r.rating = some (volume, d))) ∧
      Sim.makeGenericEF m fuel limit (conditionsNamed a.testConfig) d target ps s0 = .ok (s1, r.polys) ∧
      Sim.run24hrTest m fuel limit (conditionsNamed a.testConfig) d s1 = .ok (r.sim, r.summary)) ∧
    (∃ i, (IsPump (s.cfg.src i) ∧ ∀ b < i, ¬IsPump (s.cfg.src b)) ∧ Equipped i r.polys s r.sim) ∧
    r.results = resultsPath a.outputDir a.resultsFilename ∧
    (∀ x, r.model = some x ↔ a.saveTestData = true ∧ a.outputDir ≠ [] ∧ x = a.outputDir ++ "/generic.json".toList) := by
  unfold make at h
  obtain ⟨⟨s0, d, q⟩, h0, h⟩ := (bind_ok_iff _ _ _).mp h
  obtain ⟨⟨s1, qs⟩, h1, h⟩ := (bind_ok_iff _ _ _).mp h
  obtain ⟨⟨s2, t⟩, h2, h⟩ := (bind_ok_iff _ _ _).mp h
  simp only [pure, Except.pure, Except.ok.injEq] at h
  subst h
  dsimp only at h1 h2 ⊢
  have hp0 : ((a.drawProfileName ≠ [] ∧ q = none ∧ SameWords (ProfileName d).toList a.drawProfileName ∧ s0 = s) ∨
        (a.drawProfileName = [] ∧ ∃ volume, Sim.findFirstHourRating m fuel limit s = .ok (s0, volume, d) ∧
          q = some (volume, d))) ∧ s0.cfg = s.cfg := by
    unfold findProfile at h0
    split_ifs at h0 with hx
    · cases hn : profileNamed order a.drawProfileName with
      | none => rw [hn] at h0; cases h0
      | some d' =>
        rw [hn] at h0
        simp only [Except.ok.injEq, Prod.mk.injEq] at h0
        obtain ⟨rfl, rfl, rfl⟩ := h0
        exact ⟨.inl ⟨hx, rfl, (C89_profile order hall _ _).mp hn, rfl⟩, rfl⟩
    · obtain ⟨r, hr, h0⟩ := (bind_ok_iff _ _ _).mp h0
      simp only [pure, Except.pure, Except.ok.injEq, Prod.mk.injEq] at h0
      obtain ⟨rfl, rfl, rfl⟩ := h0
      exact ⟨.inr ⟨not_not.mp hx, r.2.1, hr, rfl⟩, findFirstHourRating_cfg hr⟩
  obtain ⟨hp0, hcfg⟩ := hp0
  refine ⟨⟨d, s0, s1, hp0, h1, h2⟩, ?_, rfl, fun x => ?_⟩
  · obtain ⟨i, -, -, -, -, -, -, hi, -, -, -, -, -, he, -⟩ := C93_fitted hp h1
    rw [hcfg] at hi
    exact ⟨i, hi, he.of_cfg hcfg.symm (run24hrTest_cfg h2)⟩
  · split_ifs with hx
    · simp only [Option.some.injEq]
      exact ⟨fun e => ⟨hx.1, hx.2, e.symm⟩, fun e => e.2.2.symm⟩
    · simp only [false_iff]
      exact fun e => hx ⟨e.1, e.2.1⟩

end HPWH
