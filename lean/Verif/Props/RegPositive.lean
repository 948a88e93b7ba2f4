import Verif.Props.PolyPositive

/-! # Central systems with positive performance between given temperatures

A check, on the coefficients, that the regressions of central systems are positive for all air, outlet and inlet
temperatures between given ones, and its soundness. -/

namespace HPWH

open Spec
open _root_.HPWH.Units

/-- Where `c * x ^ 2` is curved upwards, its tangent in the middle between `a` and `b`, otherwise its chord. -/
def sqLow (c a b x : ℚ) : ℚ :=
  if 0 ≤ c then c * ((a + b) * x - ((a + b) / 2) ^ 2) else c * ((a + b) * x - a * b)

theorem sqLow_le {c a b x : ℚ} (h1 : a ≤ x) (h2 : x ≤ b) : sqLow c a b x ≤ c * x * x := by
  unfold sqLow
  split
  · rename_i hc
    have : c * x * x - c * ((a + b) * x - ((a + b) / 2) ^ 2) = c * (x - (a + b) / 2) ^ 2 := by ring
    linarith [mul_nonneg hc (sq_nonneg (x - (a + b) / 2))]
  · rename_i hc
    have : c * x * x - c * ((a + b) * x - a * b) = -c * ((x - a) * (b - x)) := by ring
    have h3 : 0 ≤ -c * ((x - a) * (b - x)) :=
      mul_nonneg (by linarith [not_le.mp hc]) (mul_nonneg (by linarith) (by linarith))
    linarith

theorem sqLow_affine (c a b x : ℚ) : sqLow c a b x = sqLow c a b 0 + (sqLow c a b 1 - sqLow c a b 0) * x := by
  unfold sqLow
  split <;> ring

/-- What a straight line is at both ends, it is in between. -/
theorem affine_pos {u v a b x : ℚ} (h1 : a ≤ x) (h2 : x ≤ b) (ha : 0 < u + v * a) (hb : 0 < u + v * b) :
    0 < u + v * x := by
  rcases le_total 0 v with hv | hv
  · linarith [mul_le_mul_of_nonneg_left h1 hv]
  · linarith [mul_le_mul_of_nonpos_left h2 hv]

/-- The coefficients in the order of `regressedMethod`. -/
def regAt (c : List ℚ) (x y z : ℚ) : ℚ :=
  c.getD 0 0 + c.getD 1 0 * x + c.getD 2 0 * y + c.getD 3 0 * z + c.getD 4 0 * x * x + c.getD 5 0 * y * y +
    c.getD 6 0 * z * z + c.getD 7 0 * x * y + c.getD 8 0 * x * z + c.getD 9 0 * y * z + c.getD 10 0 * x * y * z

/-- A function below the regression that is linear in each temperature. -/
def regLow (c : List ℚ) (a₁ b₁ a₂ b₂ a₃ b₃ x y z : ℚ) : ℚ :=
  c.getD 0 0 + c.getD 1 0 * x + c.getD 2 0 * y + c.getD 3 0 * z + sqLow (c.getD 4 0) a₁ b₁ x +
    sqLow (c.getD 5 0) a₂ b₂ y + sqLow (c.getD 6 0) a₃ b₃ z + c.getD 7 0 * x * y + c.getD 8 0 * x * z +
    c.getD 9 0 * y * z + c.getD 10 0 * x * y * z

/-- Checks that a regression is positive for the temperatures between these: at the corners. -/
def regPos (c : List ℚ) (a₁ b₁ a₂ b₂ a₃ b₃ : ℚ) : Bool :=
  [a₁, b₁].all fun x => [a₂, b₂].all fun y => [a₃, b₃].all fun z => decide (0 < regLow c a₁ b₁ a₂ b₂ a₃ b₃ x y z)

theorem regPos_pos {c : List ℚ} {a₁ b₁ a₂ b₂ a₃ b₃ : ℚ} (h : regPos c a₁ b₁ a₂ b₂ a₃ b₃ = true) {x y z : ℚ}
    (hx : a₁ ≤ x) (hx' : x ≤ b₁) (hy : a₂ ≤ y) (hy' : y ≤ b₂) (hz : a₃ ≤ z) (hz' : z ≤ b₃) :
    0 < regAt c x y z := by
  unfold regPos at h
  simp only [List.all_cons, List.all_nil, Bool.and_true, Bool.and_eq_true, decide_eq_true_eq] at h
  have low : regLow c a₁ b₁ a₂ b₂ a₃ b₃ x y z ≤ regAt c x y z := by
    unfold regLow regAt
    linarith [sqLow_le (c := c.getD 4 0) hx hx', sqLow_le (c := c.getD 5 0) hy hy', sqLow_le (c := c.getD 6 0) hz hz']
  refine lt_of_lt_of_le ?_ low
  have inZ : ∀ {x y}, 0 < regLow c a₁ b₁ a₂ b₂ a₃ b₃ x y a₃ → 0 < regLow c a₁ b₁ a₂ b₂ a₃ b₃ x y b₃ →
      0 < regLow c a₁ b₁ a₂ b₂ a₃ b₃ x y z := fun {x y} p q => by
    have e : ∀ t, regLow c a₁ b₁ a₂ b₂ a₃ b₃ x y t = regLow c a₁ b₁ a₂ b₂ a₃ b₃ x y 0 +
        (regLow c a₁ b₁ a₂ b₂ a₃ b₃ x y 1 - regLow c a₁ b₁ a₂ b₂ a₃ b₃ x y 0) * t := fun t => by
      unfold regLow
      rw [sqLow_affine (c.getD 6 0) a₃ b₃ t]
      ring
    rw [e] at p q ⊢
    exact affine_pos hz hz' p q
  have inY : ∀ {x}, 0 < regLow c a₁ b₁ a₂ b₂ a₃ b₃ x a₂ z → 0 < regLow c a₁ b₁ a₂ b₂ a₃ b₃ x b₂ z →
      0 < regLow c a₁ b₁ a₂ b₂ a₃ b₃ x y z := fun {x} p q => by
    have e : ∀ t, regLow c a₁ b₁ a₂ b₂ a₃ b₃ x t z = regLow c a₁ b₁ a₂ b₂ a₃ b₃ x 0 z +
        (regLow c a₁ b₁ a₂ b₂ a₃ b₃ x 1 z - regLow c a₁ b₁ a₂ b₂ a₃ b₃ x 0 z) * t := fun t => by
      unfold regLow
      rw [sqLow_affine (c.getD 5 0) a₂ b₂ t]
      ring
    rw [e] at p q ⊢
    exact affine_pos hy hy' p q
  have inX : 0 < regLow c a₁ b₁ a₂ b₂ a₃ b₃ a₁ y z → 0 < regLow c a₁ b₁ a₂ b₂ a₃ b₃ b₁ y z →
      0 < regLow c a₁ b₁ a₂ b₂ a₃ b₃ x y z := fun p q => by
    have e : ∀ t, regLow c a₁ b₁ a₂ b₂ a₃ b₃ t y z = regLow c a₁ b₁ a₂ b₂ a₃ b₃ 0 y z +
        (regLow c a₁ b₁ a₂ b₂ a₃ b₃ 1 y z - regLow c a₁ b₁ a₂ b₂ a₃ b₃ 0 y z) * t := fun t => by
      unfold regLow
      rw [sqLow_affine (c.getD 4 0) a₁ b₁ t]
      ring
    rw [e] at p q ⊢
    exact affine_pos hx hx' p q
  obtain ⟨⟨⟨p1, p2⟩, p3, p4⟩, ⟨p5, p6⟩, p7, p8⟩ := h
  exact inX (inY (inZ p1 p2) (inZ p3 p4)) (inY (inZ p5 p6) (inZ p7 p8))

theorem regressedMethod_at {c : List ℚ} (h : 11 ≤ c.length) (x y z : ℚ) :
    regressedMethod c x y z = .ok (regAt c x y z) := by
  match c, h with
  | c0 :: c1 :: c2 :: c3 :: c4 :: c5 :: c6 :: c7 :: c8 :: c9 :: c10 :: _, _ => rfl

/-- The coefficients of `regressedMethodMP` in the order of `regressedMethod`. -/
def twoOf (c : List ℚ) : List ℚ :=
  [c.getD 0 0, c.getD 1 0, 0, c.getD 2 0, c.getD 3 0, 0, c.getD 4 0, 0, c.getD 5 0, 0, 0]

theorem regressedMethodMP_at {c : List ℚ} (h : 6 ≤ c.length) (x z : ℚ) :
    regressedMethodMP c x z = .ok (regAt (twoOf c) x 0 z) := by
  match c, h with
  | c0 :: c1 :: c2 :: c3 :: c4 :: c5 :: _, _ =>
    show Except.ok _ = Except.ok _
    congr 1
    show _ = c0 + c1 * x + 0 * 0 + c2 * z + c3 * x * x + 0 * 0 * 0 + c4 * z * z + 0 * x * 0 + c5 * x * z + 0 * 0 * z +
      0 * x * 0 * z
    ring

/-- Checks a single-pass system: air, outlet and inlet temperatures (°F). -/
def Poly.singlePassPos (p : Poly) (la ha lo ho li hi : ℚ) : Bool :=
  decide (11 ≤ p.input.length) && decide (11 ≤ p.cop.length) && regPos p.input la ha lo ho li hi &&
    regPos p.cop la ha lo ho li hi

/-- Checks a multi-pass system: air and inlet temperatures (°F). -/
def Poly.multiPassPos (p : Poly) (la ha li hi : ℚ) : Bool :=
  decide (6 ≤ p.input.length) && decide (6 ≤ p.cop.length) && regPos (twoOf p.input) la ha 0 0 li hi &&
    regPos (twoOf p.cop) la ha 0 0 li hi

theorem Poly.singlePassPos_pos {p : Poly} {la ha lo ho li hi : ℚ} (h : p.singlePassPos la ha lo ho li hi = true)
    {setpoint offset air water : ℚ} (h1 : la ≤ fahrenheit air) (h2 : fahrenheit air ≤ ha)
    (h3 : lo ≤ fahrenheit (setpoint + offset)) (h4 : fahrenheit (setpoint + offset) ≤ ho)
    (h5 : li ≤ fahrenheit water) (h6 : fahrenheit water ≤ hi) :
    ∃ r, p.singlePass setpoint offset air water = .ok r ∧ 0 < r.inputPower_W ∧ 0 < r.cop := by
  unfold Poly.singlePassPos at h
  simp only [Bool.and_eq_true, decide_eq_true_eq] at h
  obtain ⟨⟨⟨l1, l2⟩, p1⟩, p2⟩ := h
  have e : ∀ t, C_TO_F t = fahrenheit t := PolySet.c_to_f
  unfold Poly.singlePass
  simp only [e, regressedMethod_at l1, regressedMethod_at l2, bind, Except.bind, pure, Except.pure]
  exact ⟨_, rfl, mul_pos (by norm_num) (regPos_pos p1 h1 h2 h3 h4 h5 h6), regPos_pos p2 h1 h2 h3 h4 h5 h6⟩

theorem Poly.multiPassPos_pos {p : Poly} {la ha li hi : ℚ} (h : p.multiPassPos la ha li hi = true) {air water : ℚ}
    (h1 : la ≤ fahrenheit air) (h2 : fahrenheit air ≤ ha) (h5 : li ≤ fahrenheit water) (h6 : fahrenheit water ≤ hi) :
    ∃ r, p.multiPass air water = .ok r ∧ 0 < r.inputPower_W ∧ 0 < r.cop := by
  unfold Poly.multiPassPos at h
  simp only [Bool.and_eq_true, decide_eq_true_eq] at h
  obtain ⟨⟨⟨l1, l2⟩, p1⟩, p2⟩ := h
  have e : ∀ t, C_TO_F t = fahrenheit t := PolySet.c_to_f
  unfold Poly.multiPass
  simp only [e, regressedMethodMP_at l1, regressedMethodMP_at l2, bind, Except.bind, pure, Except.pure]
  exact ⟨_, rfl, mul_pos (by norm_num) (regPos_pos p1 h1 h2 le_rfl le_rfl h5 h6),
    regPos_pos p2 h1 h2 le_rfl le_rfl h5 h6⟩

end HPWH
