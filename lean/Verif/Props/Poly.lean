import Verif.Model.Poly
import Verif.Spec.Poly
import Verif.Lemmas.HeatSource
import Verif.Model.Units
import Mathlib.Tactic.Linarith
import Mathlib.Tactic.Ring
import Mathlib.Tactic.FieldSimp
import Mathlib.Tactic.NormNum
import Mathlib.Algebra.BigOperators.Group.List.Basic

/-! # C57: performance polynomials -/

namespace HPWH

open Spec _root_.HPWH.Units

namespace PolySet

theorem c_to_f (t : ℚ) : C_TO_F t = fahrenheit t := by unfold C_TO_F fahrenheit FperC offsetF; ring

theorem quadratic_ok {c : List ℚ} (h : 3 ≤ c.length) (x : ℚ) : quadratic c x = .ok (quadraticAt c x) := by
  match c, h with
  | c0 :: c1 :: c2 :: _, _ =>
    simp [quadratic, quadraticAt]
    ring

theorem linearInterp_ok {x x0 x1 y0 y1 : ℚ} (h : x0 < x1) :
    linearInterp x x0 x1 y0 y1 = .ok (lineAt x0 y0 x1 y1 x) := by
  have : x1 - x0 ≠ 0 := by linarith [sub_pos.mpr h] |> fun h => (sub_pos.mpr ‹x0 < x1›).ne'
  unfold linearInterp lineAt
  rw [if_neg this]
  congr 1
  field_simp
  ring

theorem T_lt {ps : PolySet} (h : ps.Pairwise fun p q => p.T_F < q.T_F) {i j : ℕ} (hij : i < j)
    (hj : j < ps.length) : (ps[i]'(hij.trans hj)).T_F < ps[j].T_F :=
  List.pairwise_iff_getElem.mp h i j _ hj hij

theorem T_le {ps : PolySet} (h : ps.Pairwise fun p q => p.T_F < q.T_F) {i j : ℕ} (hij : i ≤ j)
    (hj : j < ps.length) : (ps[i]'(lt_of_le_of_lt hij hj)).T_F ≤ ps[j].T_F := by
  rcases hij.lt_or_eq with h1 | h1
  · exact (T_lt h h1 hj).le
  · subst h1; exact le_rfl

theorem pairLoop_spec {ps : PolySet} (h : ps.Pairwise fun p q => p.T_F < q.T_F) (h2 : 2 ≤ ps.length)
    (t : ℚ) : ∀ (room i : ℕ), i + room + 1 = ps.length →
    (∀ (j : ℕ) (hj : j < ps.length), j < i → ps[j].T_F ≤ t) →
    ∃ (a : ℕ) (ha : a + 1 < ps.length), pairLoop t i (ps.drop i) = .ok (a, a + 1) ∧
      (a = 0 ∨ ps[a].T_F ≤ t) ∧ (a + 2 = ps.length ∨ t < ps[a + 1].T_F) := by
  intro room
  induction room with
  | zero =>
    intro i hi hp
    have hi' : i < ps.length := by omega
    rw [List.drop_eq_getElem_cons hi', pairLoop]
    have e : ps.drop (i + 1) = [] := List.drop_eq_nil_of_le (by omega)
    have hi0 : i ≠ 0 := by omega
    refine ⟨i - 1, by omega, ?_, ?_, Or.inl (by omega)⟩
    · have : i - 1 + 1 = i := by omega
      split_ifs <;> simp_all
    · exact Or.inr (hp (i - 1) _ (by omega))
  | succ room ih =>
    intro i hi hp
    have hi' : i < ps.length := by omega
    rw [List.drop_eq_getElem_cons hi', pairLoop]
    by_cases ht : t < ps[i].T_F
    · rw [if_pos ht]
      by_cases hi0 : i = 0
      · subst hi0
        exact ⟨0, by omega, by simp, Or.inl rfl, Or.inr (ht.trans (T_lt h (by omega) (by omega)))⟩
      · refine ⟨i - 1, by omega, ?_, Or.inr (hp (i - 1) _ (by omega)), Or.inr ?_⟩
        · rw [if_neg hi0]
          have : i - 1 + 1 = i := by omega
          rw [this]
        · have : i - 1 + 1 = i := by omega
          simpa only [this] using ht
    · rw [if_neg ht]
      have e : (ps.drop (i + 1)).isEmpty = false := by
        rw [List.drop_eq_getElem_cons (by omega : i + 1 < ps.length)]; rfl
      rw [e]
      exact ih (i + 1) (by omega) fun j hj hji => by
        rcases Nat.lt_succ_iff_lt_or_eq.mp hji with h1 | h1
        · exact hp j hj h1
        · subst h1; exact not_lt.mp ht

theorem entry_ok {ps : PolySet} {i : ℕ} (h : i < ps.length) : ps.entry i = .ok ps[i] := by
  unfold entry
  rw [List.getElem?_eq_getElem h]

/-- A performance with the given input power and COP. -/
def perfOf (input cop : ℚ) : Perf := ⟨input, cop * input, cop⟩

/-- The performance is that of the line of one pair of neighbours; which pair is found as stated. -/
theorem evaluate_spec {ps : PolySet} (h : ProperPolys ps) (ext hs : ℚ) :
    ∃ (a : ℕ) (ha : a + 1 < ps.length) (r : Perf), ps.evaluate ext hs = .ok r ∧
      OnLine ps[a] ps[a + 1] ext hs r ∧
      (a = 0 ∨ ps[a].T_F ≤ fahrenheit ext) ∧ (a + 2 = ps.length ∨ fahrenheit ext < ps[a + 1].T_F) := by
  obtain ⟨a, ha, e, h1, h2⟩ := pairLoop_spec h.increasing h.two (fahrenheit ext) (ps.length - 1) 0
    (by have := h.two; omega) (fun j _ hj => by omega)
  rw [List.drop_zero] at e
  have ca := h.coefficients ps[a] (List.getElem_mem _)
  have cb := h.coefficients ps[a + 1] (List.getElem_mem _)
  have hlt : ps[a].T_F < ps[a + 1].T_F := T_lt h.increasing (by omega) ha
  have key : ps.evaluate ext hs = .ok (perfOf
      (lineAt ps[a].T_F (quadraticAt ps[a].input (fahrenheit hs)) ps[a + 1].T_F
        (quadraticAt ps[a + 1].input (fahrenheit hs)) (fahrenheit ext))
      (lineAt ps[a].T_F (quadraticAt ps[a].cop (fahrenheit hs)) ps[a + 1].T_F
        (quadraticAt ps[a + 1].cop (fahrenheit hs)) (fahrenheit ext))) := by
    simp only [evaluate, c_to_f, e, bind, Except.bind, entry_ok ha,
      entry_ok (show a < ps.length by omega), quadratic_ok ca.1, quadratic_ok ca.2, quadratic_ok cb.1,
      quadratic_ok cb.2, linearInterp_ok hlt]
    rfl
  exact ⟨a, ha, _, key, ⟨rfl, rfl, rfl⟩, h1, h2⟩

theorem lineAt_left {x0 y0 x1 y1 : ℚ} (h : x0 < x1) : lineAt x0 y0 x1 y1 x0 = y0 := by
  have : x1 - x0 ≠ 0 := (sub_pos.mpr h).ne'
  unfold lineAt
  field_simp
  ring

theorem lineAt_right {x0 y0 x1 y1 : ℚ} (h : x0 < x1) : lineAt x0 y0 x1 y1 x1 = y1 := by
  have : x1 - x0 ≠ 0 := (sub_pos.mpr h).ne'
  unfold lineAt
  field_simp
  ring

/-- **C57.** Between two neighbouring temperatures the performance is the linear interpolation of the two
polynomials (input power and COP), and the output power is the COP times the input power. -/
theorem C57_between {ps : PolySet} (h : ProperPolys ps) (i : ℕ) (hi : i + 1 < ps.length) (ext hs : ℚ)
    (hlo : ps[i].T_F ≤ fahrenheit ext) (hhi : fahrenheit ext ≤ ps[i + 1].T_F) :
    ∃ r, ps.evaluate ext hs = .ok r ∧ OnLine ps[i] ps[i + 1] ext hs r := by
  obtain ⟨a, ha, r, e, ⟨o1, o2, o3⟩, h1, h2⟩ := evaluate_spec h ext hs
  refine ⟨r, e, ?_⟩
  rcases lt_trichotomy a i with hai | rfl | hai
  · -- the next pair would have been taken
    rcases h2 with h2 | h2
    · omega
    · exact absurd (lt_of_lt_of_le h2 (T_le h.increasing (by omega) (by omega))) (not_lt.mpr hlo)
  · exact ⟨o1, o2, o3⟩
  · -- only if the temperature is that of the upper entry
    have h1' : ps[a].T_F ≤ fahrenheit ext := by
      rcases h1 with h1 | h1
      · omega
      · exact h1
    have hle : ps[i + 1].T_F ≤ ps[a].T_F := T_le h.increasing (by omega) (by omega)
    have hai' : a = i + 1 := by
      by_contra hne
      exact absurd (T_lt h.increasing (show i + 1 < a by omega) (by omega)) (not_lt.mpr (h1'.trans hhi))
    subst hai'
    have et : fahrenheit ext = ps[i + 1].T_F := le_antisymm hhi h1'
    have l1 : ps[i].T_F < ps[i + 1].T_F := T_lt h.increasing (by omega) hi
    have l2 : ps[i + 1].T_F < ps[i + 1 + 1].T_F := T_lt h.increasing (by omega) ha
    refine ⟨?_, ?_, o3⟩
    · rw [o1, et, lineAt_left l2, lineAt_right l1]
    · rw [o2, et, lineAt_left l2, lineAt_right l1]

/-- **C57.** At the temperature of an entry the performance is that of its own polynomials. -/
theorem C57_at {ps : PolySet} (h : ProperPolys ps) (i : ℕ) (hi : i < ps.length) (ext hs : ℚ)
    (ht : fahrenheit ext = ps[i].T_F) :
    ∃ r, ps.evaluate ext hs = .ok r ∧ r.cop = quadraticAt ps[i].cop (fahrenheit hs) ∧
      r.inputPower_W = quadraticAt ps[i].input (fahrenheit hs) ∧
      r.outputPower_W = r.cop * r.inputPower_W := by
  by_cases hl : i + 1 < ps.length
  · have hlt : ps[i].T_F < ps[i + 1].T_F := T_lt h.increasing (by omega) hl
    obtain ⟨r, e, o1, o2, o3⟩ := C57_between h i hl ext hs ht.ge (ht.le.trans hlt.le)
    refine ⟨r, e, ?_, ?_, o3⟩
    · rw [o1, ht, lineAt_left hlt]
    · rw [o2, ht, lineAt_left hlt]
  · have h2 := h.two
    obtain ⟨j, rfl⟩ : ∃ j, i = j + 1 := ⟨i - 1, by omega⟩
    have hlt : ps[j].T_F < ps[j + 1].T_F := T_lt h.increasing (by omega) hi
    obtain ⟨r, e, o1, o2, o3⟩ := C57_between h j hi ext hs (hlt.le.trans ht.ge) ht.le
    refine ⟨r, e, ?_, ?_, o3⟩
    · rw [o1, ht, lineAt_right hlt]
    · rw [o2, ht, lineAt_right hlt]

/-- **C57.** Outside the range of temperatures the outermost line is continued. -/
theorem C57_outside {ps : PolySet} (h : ProperPolys ps) (ext hs : ℚ) :
    ((∀ p ∈ ps, fahrenheit ext < p.T_F) → ∃ (h1 : 1 < ps.length) (r : Perf),
      ps.evaluate ext hs = .ok r ∧ OnLine (ps[0]'(by omega)) ps[1] ext hs r) ∧
    ((∀ p ∈ ps, p.T_F ≤ fahrenheit ext) → ∃ (i : ℕ) (h1 : i + 2 = ps.length) (r : Perf),
      ps.evaluate ext hs = .ok r ∧ OnLine ps[i] ps[i + 1] ext hs r) := by
  obtain ⟨a, ha, r, e, o, h1, h2⟩ := evaluate_spec h ext hs
  constructor
  · intro hall
    rcases h1 with rfl | h1
    · exact ⟨ha, r, e, o⟩
    · exact absurd h1 (not_le.mpr (hall _ (List.getElem_mem _)))
  · intro hall
    rcases h2 with h2 | h2
    · exact ⟨a, h2, r, e, o⟩
    · exact absurd h2 (not_lt.mpr (hall _ (List.getElem_mem _)))

/-- A set of a single polynomial cannot be evaluated: the call fails at every temperature. -/
theorem C57_single_entry_fails (p : Poly) (ext hs : ℚ) :
    ∃ e, evaluate [p] ext hs = .error e := by
  by_cases h : C_TO_F ext < p.T_F
  · exact ⟨.error, by simp [evaluate, pairLoop, h, bind, Except.bind, entry]⟩
  · exact ⟨.error, by simp [evaluate, pairLoop, h, bind, Except.bind]⟩

/-! ## The nearest entry -/

theorem indexLoop_spec {ps : PolySet} (t : ℚ) : ∀ (room i : ℕ), i + room = ps.length →
    (∀ (j : ℕ) (hj : j < ps.length), j < i → ps[j].T_F ≤ t) →
    ∃ c, i ≤ c ∧ c ≤ ps.length ∧ indexLoop t (ps.drop i) (i - 1) i = (c - 1, c) ∧
      (∀ (j : ℕ) (hj : j < ps.length), j < c → ps[j].T_F ≤ t) ∧
      (∀ hc : c < ps.length, t < ps[c].T_F) := by
  intro room
  induction room with
  | zero =>
    intro i hi hp
    have e : ps.drop i = [] := List.drop_eq_nil_of_le (by omega)
    exact ⟨i, le_rfl, by omega, by rw [e]; rfl, hp, fun hc => by omega⟩
  | succ room ih =>
    intro i hi hp
    have hi' : i < ps.length := by omega
    rw [List.drop_eq_getElem_cons hi', indexLoop]
    by_cases ht : t < ps[i].T_F
    · rw [if_pos ht]
      exact ⟨i, le_rfl, by omega, rfl, hp, fun _ => ht⟩
    · rw [if_neg ht]
      obtain ⟨c, h1, h2, h3, h4, h5⟩ := ih (i + 1) (by omega) fun j hj hji => by
        rcases Nat.lt_succ_iff_lt_or_eq.mp hji with h1 | h1
        · exact hp j hj h1
        · subst h1; exact not_lt.mp ht
      exact ⟨c, by omega, h2, h3, h4, h5⟩

/-- **C57.** The entry chosen for a test is the one whose temperature is nearest to that of the test. -/
theorem C57_nearest {ps : PolySet} (h : ps.Pairwise fun p q => p.T_F < q.T_F) (hne : ps ≠ [])
    (ambientT : ℚ) :
    ∃ (i : ℕ) (hi : i < ps.length), ps.ambientIndex ambientT = .ok i ∧
      ∀ q ∈ ps, |fahrenheit ambientT - ps[i].T_F| ≤ |fahrenheit ambientT - q.T_F| := by
  have hpos : 0 < ps.length := List.length_pos_of_ne_nil hne
  obtain ⟨c, -, h2, h3, h4, h5⟩ := indexLoop_spec (ps := ps) (fahrenheit ambientT) ps.length 0 (by omega)
    (fun j _ hj => by omega)
  rw [List.drop_zero] at h3
  have h3 : indexLoop (fahrenheit ambientT) ps 0 0 = (c - 1, c) := h3
  -- distance to the entries on both sides
  have below : ∀ (j : ℕ) (hj : j < ps.length), j < c → ∀ (hc : c - 1 < ps.length),
      |fahrenheit ambientT - ps[c - 1].T_F| ≤ |fahrenheit ambientT - ps[j].T_F| := by
    intro j hj hjc hc
    have a1 := h4 (c - 1) hc (by omega)
    have a2 : ps[j].T_F ≤ ps[c - 1].T_F := T_le h (by omega) hc
    rw [abs_of_nonneg (by linarith), abs_of_nonneg (by linarith)]
    linarith
  have above : ∀ (j : ℕ) (hj : j < ps.length), c ≤ j → ∀ (hc : c < ps.length),
      |fahrenheit ambientT - ps[c].T_F| ≤ |fahrenheit ambientT - ps[j].T_F| := by
    intro j hj hjc hc
    have a1 := h5 hc
    have a2 : ps[c].T_F ≤ ps[j].T_F := T_le h hjc hj
    rw [abs_of_nonpos (by linarith), abs_of_nonpos (by linarith)]
    linarith
  unfold ambientIndex
  rw [c_to_f, h3]
  by_cases hc : c > c - 1 ∧ c < ps.length
  · have hcl : c - 1 < ps.length := by omega
    have e1 : ps[c - 1]? = some ps[c - 1] := List.getElem?_eq_getElem hcl
    have e2 : ps[c]? = some ps[c] := List.getElem?_eq_getElem hc.2
    have hlt : ps[c - 1].T_F < ps[c].T_F := T_lt h (by omega) hc.2
    have d : 0 < ps[c].T_F - ps[c - 1].T_F := sub_pos.mpr hlt
    have a1 := h4 (c - 1) hcl (by omega)
    have a2 := h5 hc.2
    simp only [if_pos hc, e1, e2, if_neg d.ne']
    by_cases hr : (fahrenheit ambientT - ps[c - 1].T_F) / (ps[c].T_F - ps[c - 1].T_F) < 1 / 2
    · rw [if_pos hr]
      rw [div_lt_iff₀ d] at hr
      refine ⟨c - 1, hcl, rfl, fun q hq => ?_⟩
      obtain ⟨j, hj, rfl⟩ := List.getElem_of_mem hq
      by_cases hjc : j < c
      · exact below j hj hjc hcl
      · refine le_trans ?_ (above j hj (by omega) hc.2)
        rw [abs_of_nonneg (by linarith), abs_of_nonpos (by linarith)]
        linarith
    · rw [if_neg hr]
      rw [div_lt_iff₀ d, not_lt] at hr
      refine ⟨c, hc.2, rfl, fun q hq => ?_⟩
      obtain ⟨j, hj, rfl⟩ := List.getElem_of_mem hq
      by_cases hjc : j < c
      · refine le_trans ?_ (below j hj hjc hcl)
        rw [abs_of_nonpos (by linarith), abs_of_nonneg (by linarith)]
        linarith
      · exact above j hj (by omega) hc.2
  · simp only [if_neg hc]
    refine ⟨c - 1, by omega, rfl, fun q hq => ?_⟩
    obtain ⟨j, hj, rfl⟩ := List.getElem_of_mem hq
    by_cases hc0 : c = 0
    · subst hc0
      exact above j hj (by omega) hpos
    · exact below j hj (by omega) (by omega)

/-! ## Central systems -/

/-- **C57.** A single-pass central system's COP and input power are sums of the given coefficients times
powers and products of outside, outlet and inlet temperature. -/
theorem C57_single_pass (p : Poly) (hp : 11 ≤ p.input.length ∧ 11 ≤ p.cop.length)
    (setpoint offset ext hs : ℚ) :
    ∃ r, p.singlePass setpoint offset ext hs = .ok r ∧
      r.cop = (List.zipWith (fun c e => c * (fahrenheit ext ^ e.1 *
        fahrenheit (setpoint + offset) ^ e.2.1 * fahrenheit hs ^ e.2.2)) p.cop singlePassTerms).sum ∧
      r.inputPower_W = 1000 * (List.zipWith (fun c e => c * (fahrenheit ext ^ e.1 *
        fahrenheit (setpoint + offset) ^ e.2.1 * fahrenheit hs ^ e.2.2)) p.input singlePassTerms).sum ∧
      r.outputPower_W = r.cop * r.inputPower_W := by
  obtain ⟨T, i, c⟩ := p
  obtain ⟨h1, h2⟩ := hp
  match i, h1, c, h2 with
  | i0 :: i1 :: i2 :: i3 :: i4 :: i5 :: i6 :: i7 :: i8 :: i9 :: i10 :: _, _,
    c0 :: c1 :: c2 :: c3 :: c4 :: c5 :: c6 :: c7 :: c8 :: c9 :: c10 :: _, _ =>
    refine ⟨_, rfl, ?_, ?_, rfl⟩
    · simp only [c_to_f, singlePassTerms, List.zipWith, List.sum_cons, List.zipWith_nil_right,
        List.sum_nil]
      ring
    · simp only [c_to_f, singlePassTerms, List.zipWith, List.sum_cons, List.zipWith_nil_right,
        List.sum_nil, KW_TO_W]
      ring

/-- **C57.** The same for multi-pass central systems, with outside and inlet temperature. -/
theorem C57_multi_pass (p : Poly) (hp : 6 ≤ p.input.length ∧ 6 ≤ p.cop.length) (ext hs : ℚ) :
    ∃ r, p.multiPass ext hs = .ok r ∧
      r.cop = (List.zipWith (fun c e => c * (fahrenheit ext ^ e.1 * fahrenheit hs ^ e.2))
        p.cop multiPassTerms).sum ∧
      r.inputPower_W = 1000 * (List.zipWith (fun c e => c * (fahrenheit ext ^ e.1 * fahrenheit hs ^ e.2))
        p.input multiPassTerms).sum ∧
      r.outputPower_W = r.cop * r.inputPower_W := by
  obtain ⟨T, i, c⟩ := p
  obtain ⟨h1, h2⟩ := hp
  match i, h1, c, h2 with
  | i0 :: i1 :: i2 :: i3 :: i4 :: i5 :: _, _, c0 :: c1 :: c2 :: c3 :: c4 :: c5 :: _, _ =>
    refine ⟨_, rfl, ?_, ?_, rfl⟩
    · simp only [c_to_f, multiPassTerms, List.zipWith, List.sum_cons, List.zipWith_nil_right,
        List.sum_nil]
      ring
    · simp only [c_to_f, multiPassTerms, List.zipWith, List.sum_cons, List.zipWith_nil_right,
        List.sum_nil, KW_TO_W]
      ring

/-! ## An example -/

/-- Polynomials at 47 °F, 67 °F and 95 °F. -/
def samplePolys : PolySet :=
  [⟨47, [187, 2, 1 / 100], [5, -1 / 100, -1 / 10000]⟩,
   ⟨67, [152, 3, 1 / 100], [6, -1 / 50, 0]⟩,
   ⟨95, [100, 4, 1 / 200], [7, -1 / 40, 1 / 20000]⟩]

theorem samplePolys_proper : ProperPolys samplePolys := by
  refine ⟨by decide, by decide +kernel, by decide⟩

example : ∃ r, samplePolys.evaluate 10 50 = .ok r ∧ r.cop = 124093 / 50000 := by decide +kernel
example : samplePolys.ambientIndex 20 = .ok 1 := by decide +kernel

end PolySet

end HPWH
