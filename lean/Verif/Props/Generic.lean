import Verif.Props.Fit

/-! # C67: generic models -/

namespace HPWH

open Spec _root_.HPWH.Units

namespace PolySet

/-- The same polynomials with the COP raised by `d`. -/
def Spec.raised (d : ℚ) (p : Poly) : Poly :=
  ⟨p.T_F, p.input, match p.cop with
    | [] => []
    | c :: cs => (c + d) :: cs⟩

open PolySet.Spec

theorem addCop0_ok {d : ℚ} {p q : Poly} (h : addCop0 d p = .ok q) : q = raised d p := by
  obtain ⟨T, i, c⟩ := p
  cases c with
  | nil => exact absurd h (by simp [addCop0])
  | cons c cs => exact (Except.ok.inj h).symm

theorem addOthers_ok {d : ℚ} {i : ℕ} : ∀ {ps : PolySet} {j : ℕ} {qs : PolySet},
    addOthers d i j ps = .ok qs → qs.length = ps.length ∧
      ∀ l (h : l < ps.length) (h' : l < qs.length),
        qs[l] = if j + l = i then ps[l] else raised d ps[l] := by
  intro ps
  induction ps with
  | nil =>
    intro j qs h
    obtain rfl := Except.ok.inj h
    exact ⟨rfl, fun l h => absurd h (by simp)⟩
  | cons p ps ih =>
    intro j qs h
    rw [addOthers, bind_ok_iff] at h
    obtain ⟨q, hq, h⟩ := h
    rw [bind_ok_iff] at h
    obtain ⟨qs', hqs, h⟩ := h
    obtain rfl := Except.ok.inj h
    obtain ⟨e1, e2⟩ := ih hqs
    refine ⟨by simp [e1], fun l hl hl' => ?_⟩
    cases l with
    | zero =>
      by_cases hj : j = i
      · simp only [hj, ne_eq, not_true, if_false] at hq
        simpa [hj] using (Except.ok.inj hq).symm
      · rw [if_pos hj] at hq
        simpa [hj] using addCop0_ok hq
    | succ l =>
      have := e2 l (by simpa using hl) (by simpa using hl')
      simp only [List.getElem_cons_succ, this]
      rw [show j + 1 + l = j + (l + 1) by ring]

theorem cop0_ok {ps : PolySet} {i : ℕ} {x : ℚ} (h : ps.cop0 i = .ok x) :
    ∃ (hi : i < ps.length) (cs : List ℚ), ps[i].cop = x :: cs := by
  unfold cop0 at h
  split at h
  · rename_i T inp c cs e
    obtain rfl := Except.ok.inj h
    obtain ⟨hi, e⟩ := List.getElem?_eq_some_iff.mp e
    exact ⟨hi, cs, by rw [e]⟩
  · exact absurd h (by simp)

theorem setCop0_getElem {ps : PolySet} {i : ℕ} {x : ℚ} (hi : i < ps.length) :
    (ps.setCop0 i x).length = ps.length ∧ ∀ l (h : l < ps.length) (h' : l < (ps.setCop0 i x).length),
      (ps.setCop0 i x)[l] = if l = i then { ps[i] with cop := ps[i].cop.set 0 x } else ps[l] := by
  have e : ps.setCop0 i x = ps.set i { ps[i] with cop := ps[i].cop.set 0 x } := by
    unfold setCop0
    rw [List.getElem?_eq_getElem hi]
  refine ⟨by rw [e, List.length_set], fun l h h' => ?_⟩
  simp only [e, List.getElem_set]
  by_cases hl : l = i
  · simp [hl]
  · simp [hl, Ne.symm hl]

variable {σ : Type}

/-- What fitting to one test leaves. -/
theorem makeGenericEF_ok {ef : PolySet → σ → Res (ℚ × σ)} {perf : PolySet → ℚ → Res Perf}
    {maxSetpoint ambientT target : ℚ} {ps qs : PolySet} {s s' : σ}
    (h : makeGenericEF ef perf maxSetpoint ambientT target ps s = .ok (qs, s')) :
    ∃ i x0 x, ps.ambientIndex ambientT = .ok i ∧ ps.cop0 i = .ok x0 ∧ qs = ps.setCop0 i x ∧
      Fit.fitOne (fun x s => ef (ps.setCop0 i x) s) target (1 / 10 ^ 9) x0 s = .ok (x, s') ∧
      ∃ p1 p0, perf qs maxSetpoint = .ok p1 ∧ perf qs 0 = .ok p0 ∧ 0 ≤ p1.cop ∧ p1.cop ≤ p0.cop := by
  unfold makeGenericEF at h
  rw [bind_ok_iff] at h
  obtain ⟨i, hi, h⟩ := h
  rw [bind_ok_iff] at h
  obtain ⟨x0, hx0, h⟩ := h
  rw [bind_ok_iff] at h
  obtain ⟨r, hr, h⟩ := h
  rw [bind_ok_iff] at h
  obtain ⟨p1, hp1, h⟩ := h
  split_ifs at h with hc
  rw [bind_ok_iff] at h
  obtain ⟨p0, hp0, h⟩ := h
  split_ifs at h with hc2
  obtain ⟨rfl, rfl⟩ := Prod.mk.inj (Except.ok.inj h)
  exact ⟨i, x0, r.1, hi, hx0, rfl, hr, p1, p0, hp1, hp0, not_lt.mp hc, not_lt.mp hc2⟩

/-- **C67.** Fitting a model to one test changes the constant of the COP of the one entry whose temperature
is nearest to the test's, and nothing else; it is accepted only if the COP is not negative at the largest
setpoint and not larger there than at 0 °C. -/
theorem C67_generic_ef {ef : PolySet → σ → Res (ℚ × σ)} {perf : PolySet → ℚ → Res Perf}
    {maxSetpoint ambientT target : ℚ} {ps qs : PolySet} {s s' : σ}
    (hT : ps.Pairwise fun p q => p.T_F < q.T_F)
    (h : makeGenericEF ef perf maxSetpoint ambientT target ps s = .ok (qs, s')) :
    (∃ (i : ℕ) (hi : i < ps.length) (d : ℚ), qs.length = ps.length ∧
      (∀ q ∈ ps, |fahrenheit ambientT - ps[i].T_F| ≤ |fahrenheit ambientT - q.T_F|) ∧
      ∀ l (h : l < ps.length) (h' : l < qs.length),
        qs[l] = if l = i then raised d ps[l] else ps[l]) ∧
    ∃ p1 p0, perf qs maxSetpoint = .ok p1 ∧ perf qs 0 = .ok p0 ∧ 0 ≤ p1.cop ∧ p1.cop ≤ p0.cop := by
  obtain ⟨i, x0, x, hi, hx0, rfl, -, hp⟩ := makeGenericEF_ok h
  refine ⟨?_, hp⟩
  obtain ⟨hil, cs, hcs⟩ := cop0_ok hx0
  obtain ⟨j, hj, hj1, hj2⟩ := C57_nearest hT (by intro h0; rw [h0] at hil; simp at hil) ambientT
  rw [hj1] at hi
  obtain rfl := Except.ok.inj hi
  obtain ⟨g1, g2⟩ := setCop0_getElem (x := x) hil
  refine ⟨j, hj, x - x0, g1, hj2, fun l hl hl' => ?_⟩
  rw [g2 l hl hl']
  by_cases hlj : l = j
  · subst hlj
    rw [if_pos rfl, if_pos rfl]
    unfold raised
    rw [hcs]
    simp
  · rw [if_neg hlj, if_neg hlj]

/-! ## The model fitted to the UEF -/

theorem quadratic_raised {p : Poly} (h : 3 ≤ p.cop.length) (d x : ℚ) :
    quadraticAt (raised d p).cop x = quadraticAt p.cop x + d := by
  obtain ⟨T, i, c⟩ := p
  match c, h with
  | c0 :: c1 :: c2 :: _, _ =>
    simp [raised, quadraticAt]
    ring

theorem raised_proper {ps : PolySet} (h : ProperPolys ps) (d : ℚ) : ProperPolys (ps.map (raised d)) := by
  refine ⟨by simpa using h.two, ?_, ?_⟩
  · rw [List.pairwise_map]
    exact h.increasing
  · intro p hp
    obtain ⟨q, hq, rfl⟩ := List.mem_map.mp hp
    have := h.coefficients q hq
    refine ⟨this.1, ?_⟩
    obtain ⟨T, i, c⟩ := q
    cases c with
    | nil => exact this.2
    | cons c cs => simpa [raised] using this.2

theorem raised_evaluate {ps : PolySet} (h : ProperPolys ps) (d ext hs : ℚ) :
    ∃ r r', ps.evaluate ext hs = .ok r ∧ PolySet.evaluate (ps.map (raised d)) ext hs = .ok r' ∧
      r'.cop = r.cop + d ∧ r'.inputPower_W = r.inputPower_W ∧
      r'.outputPower_W = r'.cop * r'.inputPower_W := by
  obtain ⟨a, ha, r, e, ⟨o1, o2, o3⟩, h1, h2⟩ := evaluate_spec h ext hs
  have hp := raised_proper h d
  have hlt : ps[a].T_F < ps[a + 1].T_F := T_lt h.increasing (by omega) ha
  have ca := h.coefficients ps[a] (List.getElem_mem _)
  have cb := h.coefficients ps[a + 1] (List.getElem_mem _)
  obtain ⟨a', ha', r', e', ⟨o1', o2', o3'⟩, h1', h2'⟩ := evaluate_spec hp ext hs
  have hl : (ps.map (raised d)).length = ps.length := List.length_map _
  -- the same pair is found
  have haa : a' = a := by
    have ha'' : a' + 1 < ps.length := by rw [← hl]; exact ha'
    have k1 : a' = 0 ∨ ps[a'].T_F ≤ fahrenheit ext := by
      rcases h1' with h1' | h1'
      · exact Or.inl h1'
      · rw [List.getElem_map] at h1'
        exact Or.inr h1'
    have k2 : a' + 2 = ps.length ∨ fahrenheit ext < ps[a' + 1].T_F := by
      rcases h2' with h2' | h2'
      · exact Or.inl (hl ▸ h2')
      · rw [List.getElem_map] at h2'
        exact Or.inr h2'
    rcases lt_trichotomy a' a with hlt' | heq | hlt'
    · rcases k2 with k2 | k2
      · omega
      · rcases h1 with h1 | h1
        · omega
        · have h3 : ps[a' + 1].T_F ≤ ps[a].T_F := T_le h.increasing (show a' + 1 ≤ a by omega) (by omega)
          exact absurd (lt_of_le_of_lt h1 k2) (not_lt.mpr h3)
    · exact heq
    · rcases h2 with h2 | h2
      · omega
      · rcases k1 with k1 | k1
        · omega
        · have h3 : ps[a + 1].T_F ≤ ps[a'].T_F := T_le h.increasing (show a + 1 ≤ a' by omega) (by omega)
          exact absurd (lt_of_le_of_lt k1 h2) (not_lt.mpr h3)
  subst haa
  refine ⟨r, r', e, e', ?_, ?_, o3'⟩
  · rw [o1', o1]
    simp only [List.getElem_map, quadratic_raised ca.2, quadratic_raised cb.2]
    change lineAt ps[a'].T_F _ ps[a' + 1].T_F _ _ = _
    have hd : ps[a' + 1].T_F - ps[a'].T_F ≠ 0 := (sub_pos.mpr hlt).ne'
    unfold lineAt
    field_simp
    ring
  · rw [o2', o2]
    simp only [List.getElem_map]
    rfl

/-- **C67.** A generic model fitted to a uniform energy factor has a COP that differs by the same amount
from that of the original model at every pair of temperatures, and the same input power. -/
theorem C67_generic_uef {ef : PolySet → σ → Res (ℚ × σ)} {perf : PolySet → ℚ → Res Perf}
    {maxSetpoint ambientT target : ℚ} {ps qs : PolySet} {s s' : σ} (hps : ProperPolys ps)
    (h : makeGenericUEF ef perf maxSetpoint ambientT target ps s = .ok (qs, s')) :
    ∃ d, ∀ ext hs, ∃ r r', ps.evaluate ext hs = .ok r ∧ qs.evaluate ext hs = .ok r' ∧
      r'.cop = r.cop + d ∧ r'.inputPower_W = r.inputPower_W ∧
      r'.outputPower_W = r'.cop * r'.inputPower_W := by
  unfold makeGenericUEF at h
  rw [bind_ok_iff] at h
  obtain ⟨i, hi, h⟩ := h
  rw [bind_ok_iff] at h
  obtain ⟨x0, hx0, h⟩ := h
  rw [bind_ok_iff] at h
  obtain ⟨r, hr, h⟩ := h
  rw [bind_ok_iff] at h
  obtain ⟨x1, hx1, h⟩ := h
  rw [bind_ok_iff] at h
  obtain ⟨qs', hqs, h⟩ := h
  obtain ⟨rfl, rfl⟩ := Prod.mk.inj (Except.ok.inj h)
  obtain ⟨i', x0', x, hi', -, e, -, -⟩ := makeGenericEF_ok hr
  rw [hi] at hi'
  obtain rfl := Except.ok.inj hi'
  obtain ⟨hil, cs, hcs⟩ := cop0_ok hx0
  obtain ⟨g1, g2⟩ := setCop0_getElem (x := x) hil
  obtain ⟨hil', cs', hcs'⟩ := cop0_ok hx1
  obtain ⟨e1, e2⟩ := addOthers_ok hqs
  rw [e] at hil' e1
  simp only [e] at hcs' e2
  have hx : x1 = x := by
    rw [g2 i hil hil', if_pos rfl] at hcs'
    simp only [hcs, List.set_cons_zero] at hcs'
    exact (List.cons.inj hcs').1.symm
  refine ⟨x1 - x0, ?_⟩
  have key : qs' = ps.map (raised (x1 - x0)) := by
    apply List.ext_getElem
    · rw [e1, g1, List.length_map]
    · intro l hl hl'
      have hlp : l < ps.length := by rw [e1, g1] at hl; exact hl
      rw [e2 l (by rw [g1]; exact hlp) hl, List.getElem_map, g2 l hlp (by rw [g1]; exact hlp), Nat.zero_add]
      by_cases hli : l = i
      · subst hli
        rw [if_pos rfl, if_pos rfl]
        subst hx
        have : raised (x1 - x0) ps[l] = { ps[l] with cop := ps[l].cop.set 0 x1 } := by
          unfold raised
          rw [hcs]
          simp
        rw [this]
      · rw [if_neg hli, if_neg hli]
  rw [key]
  exact fun ext hs => raised_evaluate hps _ ext hs

/-- A generic model: the energy factor is here simply taken to be the COP at 19 °C and 45 °C. -/
example : ∃ r, makeGenericUEF (fun ps (count : ℕ) => do
      let p ← ps.evaluate 19 45
      return (p.cop, count + 1)) (fun ps t => ps.evaluate 19 t) 60 19 3 samplePolys 0 = .ok r ∧
    r.1 ≠ samplePolys ∧ r.1.length = 3 := by decide +kernel

end PolySet

end HPWH
