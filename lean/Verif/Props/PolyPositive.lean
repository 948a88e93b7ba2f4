import Verif.Props.Poly
import Mathlib.Tactic.Positivity
import Mathlib.Tactic.LinearCombination
import Mathlib.Algebra.Order.Field.Basic

/-! # Heat pumps with positive performance between given temperatures

A check, on the coefficients, that performance polynomials are positive for all water and air temperatures between
given ones, and its soundness. -/

namespace HPWH

open Spec

/-- A quadratic is positive between `a` and `b` if it is at both and either is not curved upwards, has no zero, or has
its lowest point outside. -/
def quadPos (c : List ℚ) (a b : ℚ) : Bool :=
  decide (0 < quadraticAt c a) && decide (0 < quadraticAt c b) &&
    (decide (c.getD 2 0 ≤ 0) || decide (c.getD 1 0 ^ 2 < 4 * c.getD 0 0 * c.getD 2 0) ||
      decide (0 ≤ c.getD 1 0 + 2 * c.getD 2 0 * a) || decide (c.getD 1 0 + 2 * c.getD 2 0 * b ≤ 0))

theorem quadPos_pos {c : List ℚ} {a b : ℚ} (h : quadPos c a b = true) {x : ℚ} (hx : a ≤ x) (hx' : x ≤ b) :
    0 < quadraticAt c x := by
  unfold quadPos at h
  simp only [Bool.and_eq_true, Bool.or_eq_true, decide_eq_true_eq] at h
  obtain ⟨⟨h1, h2⟩, h3⟩ := h
  unfold quadraticAt at h1 h2 ⊢
  generalize c.getD 0 0 = c0 at *
  generalize c.getD 1 0 = c1 at *
  generalize c.getD 2 0 = c2 at *
  by_cases hc : c2 ≤ 0
  · -- not curved upwards
    rcases hx.eq_or_lt with rfl | hlt
    · exact h1
    have hab : 0 < b - a := by linarith
    have key : (b - a) * (c0 + c1 * x + c2 * x ^ 2) = (b - x) * (c0 + c1 * a + c2 * a ^ 2) +
        (x - a) * (c0 + c1 * b + c2 * b ^ 2) + -c2 * (b - a) * ((x - a) * (b - x)) := by ring
    have p1 : 0 ≤ (b - x) * (c0 + c1 * a + c2 * a ^ 2) := mul_nonneg (by linarith) h1.le
    have p2 : 0 < (x - a) * (c0 + c1 * b + c2 * b ^ 2) := mul_pos (by linarith) h2
    have p3 : 0 ≤ -c2 * (b - a) * ((x - a) * (b - x)) :=
      mul_nonneg (mul_nonneg (by linarith) hab.le) (mul_nonneg (by linarith) (by linarith))
    exact pos_of_mul_pos_right (by rw [key]; linarith) hab.le
  have hpos := not_le.mp hc
  rcases h3 with ((h3 | h3) | h3) | h3
  · exact absurd h3 hc
  · -- no zero
    have : 4 * c2 * (c0 + c1 * x + c2 * x ^ 2) = (2 * c2 * x + c1) ^ 2 + (4 * c0 * c2 - c1 ^ 2) := by ring
    have h4 : 0 < 4 * c2 * (c0 + c1 * x + c2 * x ^ 2) := by rw [this]; linarith [sq_nonneg (2 * c2 * x + c1)]
    exact pos_of_mul_pos_right h4 (by linarith)
  · have : c0 + c1 * x + c2 * x ^ 2 = (c0 + c1 * a + c2 * a ^ 2) + (x - a) * (c1 + 2 * c2 * a) +
        c2 * (x - a) ^ 2 := by ring
    rw [this]
    have p1 : 0 ≤ (x - a) * (c1 + 2 * c2 * a) := mul_nonneg (by linarith) h3
    have p2 : 0 ≤ c2 * (x - a) ^ 2 := mul_nonneg hpos.le (sq_nonneg _)
    linarith
  · have : c0 + c1 * x + c2 * x ^ 2 = (c0 + c1 * b + c2 * b ^ 2) + (b - x) * -(c1 + 2 * c2 * b) +
        c2 * (b - x) ^ 2 := by ring
    rw [this]
    have p1 : 0 ≤ (b - x) * -(c1 + 2 * c2 * b) := mul_nonneg (by linarith) (by linarith)
    have p2 : 0 ≤ c2 * (b - x) ^ 2 := mul_nonneg hpos.le (sq_nonneg _)
    linarith

namespace PolySet

/-- The coefficients of the quadratic at `t` on the line through two. -/
def lineCoeffs (t0 : ℚ) (c0 : List ℚ) (t1 : ℚ) (c1 : List ℚ) (t : ℚ) : List ℚ :=
  [lineAt t0 (c0.getD 0 0) t1 (c1.getD 0 0) t, lineAt t0 (c0.getD 1 0) t1 (c1.getD 1 0) t,
    lineAt t0 (c0.getD 2 0) t1 (c1.getD 2 0) t]

theorem lineCoeffs_at (t0 : ℚ) (c0 : List ℚ) (t1 : ℚ) (c1 : List ℚ) (t x : ℚ) :
    quadraticAt (lineCoeffs t0 c0 t1 c1 t) x = lineAt t0 (quadraticAt c0 x) t1 (quadraticAt c1 x) t := by
  simp only [quadraticAt, lineCoeffs, lineAt, List.getD_cons_zero, List.getD_cons_succ]
  ring

/-- The entry at `t` on the line through two entries. -/
def between (p q : Poly) (t : ℚ) : Poly :=
  ⟨t, lineCoeffs p.T_F p.input q.T_F q.input t, lineCoeffs p.T_F p.cop q.T_F q.cop t⟩

/-- Positive input power and COP for water between `a` and `b` °F. -/
def polyPos (a b : ℚ) (p : Poly) : Bool := quadPos p.cop a b && quadPos p.input a b

/-- Checks that input power and COP are positive for air between `la` and `ha` and water between `a` and `b` °F: at
each entry and, on the lines used outside the entries, at `la` and `ha`. -/
def posOn (ps : PolySet) (la ha a b : ℚ) : Bool :=
  decide (2 ≤ ps.length) && decide (ps.Pairwise fun p q => p.T_F < q.T_F) &&
  ps.all (fun p => decide (3 ≤ p.input.length) && decide (3 ≤ p.cop.length) && polyPos a b p) &&
  (match ps with
    | p :: q :: _ => polyPos a b (between p q (min la p.T_F))
    | _ => false) &&
  (match ps.reverse with
    | q :: p :: _ => polyPos a b (between p q (max ha q.T_F))
    | _ => false)

theorem lineAt_line {x0 y0 x1 y1 a b x : ℚ} (h : x0 < x1) (hab : a < b) :
    lineAt x0 y0 x1 y1 x = lineAt a (lineAt x0 y0 x1 y1 a) b (lineAt x0 y0 x1 y1 b) x := by
  have h1 : x1 - x0 ≠ 0 := (sub_pos.mpr h).ne'
  have h2 : b - a ≠ 0 := (sub_pos.mpr hab).ne'
  unfold lineAt
  field_simp
  ring

theorem lineAt_pos' {a u b v x : ℚ} (hab : a < b) (h1 : a ≤ x) (h2 : x ≤ b) (hu : 0 < u) (hv : 0 < v) :
    0 < lineAt a u b v x := by
  unfold lineAt
  have hd : 0 < b - a := sub_pos.mpr hab
  rw [← mul_div_assoc, ← mul_div_assoc, ← add_div]
  apply div_pos _ hd
  rcases h1.eq_or_lt with rfl | h1
  · nlinarith
  · nlinarith [mul_nonneg hu.le (sub_nonneg.mpr h2), mul_pos hv (sub_pos.mpr h1)]

/-- What the check says: positive input power and COP everywhere between the temperatures. -/
theorem posOn_pos {ps : PolySet} {la ha a b : ℚ} (h : ps.posOn la ha a b = true) {ext hs : ℚ}
    (h1 : la ≤ fahrenheit ext) (h2 : fahrenheit ext ≤ ha) (h3 : a ≤ fahrenheit hs) (h4 : fahrenheit hs ≤ b) :
    ∃ r, ps.evaluate ext hs = .ok r ∧ 0 < r.inputPower_W ∧ 0 < r.cop ∧ r.outputPower_W = r.cop * r.inputPower_W := by
  unfold posOn at h
  simp only [Bool.and_eq_true, decide_eq_true_eq, List.all_eq_true] at h
  obtain ⟨⟨⟨⟨two, inc⟩, hall⟩, hl⟩, hh⟩ := h
  have proper : ProperPolys ps := ⟨two, inc, fun p hp => ⟨(hall p hp).1.1, (hall p hp).1.2⟩⟩
  have one : ∀ p ∈ ps, 0 < quadraticAt p.cop (fahrenheit hs) ∧ 0 < quadraticAt p.input (fahrenheit hs) := by
    intro p hp
    have := (hall p hp).2
    unfold polyPos at this
    rw [Bool.and_eq_true] at this
    exact ⟨quadPos_pos this.1 h3 h4, quadPos_pos this.2 h3 h4⟩
  obtain ⟨i, hi, r, e, o, e1, e2⟩ := evaluate_spec proper ext hs
  have hlt : ps[i].T_F < ps[i + 1].T_F := T_lt inc (by omega) hi
  have at0 := one ps[i] (List.getElem_mem _)
  have at1 := one ps[i + 1] (List.getElem_mem _)
  refine ⟨r, e, ?_⟩
  have key : 0 < lineAt ps[i].T_F (quadraticAt ps[i].cop (fahrenheit hs)) ps[i + 1].T_F
        (quadraticAt ps[i + 1].cop (fahrenheit hs)) (fahrenheit ext) ∧
      0 < lineAt ps[i].T_F (quadraticAt ps[i].input (fahrenheit hs)) ps[i + 1].T_F
        (quadraticAt ps[i + 1].input (fahrenheit hs)) (fahrenheit ext) := by
    by_cases c1 : fahrenheit ext < ps[i].T_F
    · -- below the first entry
      have hi0 : i = 0 := by
        rcases e1 with e1 | e1
        · exact e1
        · exact absurd e1 (not_le.mpr c1)
      subst hi0
      obtain ⟨p, q, l, rfl⟩ : ∃ p q l, ps = p :: q :: l := by
        match ps, two with
        | p :: q :: l, _ => exact ⟨p, q, l, rfl⟩
      simp only [List.getElem_cons_zero, List.getElem_cons_succ] at *
      have hm : min la p.T_F < p.T_F := by rw [min_lt_iff]; left; linarith
      have hb : 0 < quadraticAt (between p q (min la p.T_F)).cop (fahrenheit hs) ∧
          0 < quadraticAt (between p q (min la p.T_F)).input (fahrenheit hs) := by
        unfold polyPos at hl
        rw [Bool.and_eq_true] at hl
        exact ⟨quadPos_pos hl.1 h3 h4, quadPos_pos hl.2 h3 h4⟩
      unfold between at hb
      simp only [lineCoeffs_at] at hb
      have hml : min la p.T_F ≤ fahrenheit ext := (min_le_left _ _).trans h1
      constructor
      · rw [lineAt_line hlt hm]
        refine lineAt_pos' hm hml c1.le hb.1 ?_
        rw [lineAt_left hlt]; exact at0.1
      · rw [lineAt_line hlt hm]
        refine lineAt_pos' hm hml c1.le hb.2 ?_
        rw [lineAt_left hlt]; exact at0.2
    · by_cases c2 : ps[i + 1].T_F < fahrenheit ext
      · -- above the last entry
        have hi0 : i + 2 = ps.length := by
          rcases e2 with e2 | e2
          · exact e2
          · exact absurd e2.le (not_le.mpr c2)
        have hr0 : ps.reverse[0]? = some ps[i + 1] := by
          rw [List.getElem?_reverse (by omega), List.getElem?_eq_getElem (by omega)]
          congr 2; omega
        have hr1 : ps.reverse[1]? = some ps[i] := by
          rw [List.getElem?_reverse (by omega), List.getElem?_eq_getElem (by omega)]
          congr 2; omega
        generalize ps[i] = p at *
        generalize ps[i + 1] = q at *
        obtain ⟨l, hl'⟩ : ∃ l, ps.reverse = q :: p :: l := by
          match hrev : ps.reverse with
          | [] => rw [hrev] at hr0; simp at hr0
          | [x] => rw [hrev] at hr1; simp at hr1
          | x :: y :: l =>
            rw [hrev] at hr0 hr1
            simp only [List.getElem?_cons_zero, List.getElem?_cons_succ, Option.some.injEq] at hr0 hr1
            exact ⟨l, by rw [hr0, hr1]⟩
        rw [hl'] at hh
        simp only at hh
        have hm : q.T_F < max ha q.T_F := by rw [lt_max_iff]; left; linarith
        have hb : 0 < quadraticAt (between p q (max ha q.T_F)).cop (fahrenheit hs) ∧
            0 < quadraticAt (between p q (max ha q.T_F)).input (fahrenheit hs) := by
          unfold polyPos at hh
          rw [Bool.and_eq_true] at hh
          exact ⟨quadPos_pos hh.1 h3 h4, quadPos_pos hh.2 h3 h4⟩
        unfold between at hb
        simp only [lineCoeffs_at] at hb
        have hmr : fahrenheit ext ≤ max ha q.T_F := h2.trans (le_max_left _ _)
        constructor
        · rw [lineAt_line hlt hm]
          refine lineAt_pos' hm c2.le hmr ?_ hb.1
          rw [lineAt_right hlt]; exact at1.1
        · rw [lineAt_line hlt hm]
          refine lineAt_pos' hm c2.le hmr ?_ hb.2
          rw [lineAt_right hlt]; exact at1.2
      · exact ⟨lineAt_pos' hlt (not_lt.mp c1) (not_lt.mp c2) at0.1 at1.1,
          lineAt_pos' hlt (not_lt.mp c1) (not_lt.mp c2) at0.2 at1.2⟩
  exact ⟨by rw [o.input]; exact key.2, by rw [o.cop]; exact key.1, o.output⟩

end PolySet

end HPWH
