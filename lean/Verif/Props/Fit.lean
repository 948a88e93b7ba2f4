import Verif.Model.Fit
import Verif.Props.Poly
import Mathlib.Tactic.LinearCombination
import Mathlib.Tactic.Positivity

/-! # C52: fitting, C67: generic models -/

namespace HPWH

open Spec _root_.HPWH.Units

namespace Fit

variable {σ : Type}

/-- A metric whose value is a function `g` of the parameter alone. -/
def Spec.IsFunction (metric : Metric σ) (g : ℚ → ℚ) : Prop :=
  ∀ x s, ∃ s', metric x s = .ok (g x, s')

/-- The value is as good as the fit demands: within 10⁻¹² of the target. -/
def Spec.Meets (target value : ℚ) : Prop := |value - target| ≤ 1 / 10 ^ 12

open Fit.Spec

theorem meets_iff {f v : ℚ} : (v ≤ f + 1 / 10 ^ 12 ∧ v ≥ f - 1 / 10 ^ 12) ↔ Meets f v := by
  unfold Meets
  rw [abs_le]
  constructor
  · rintro ⟨h1, h2⟩; constructor <;> linarith
  · rintro ⟨h1, h2⟩; constructor <;> linarith

/-- The loop keeps the values of the metric beside its points; if it reports success, its point meets the
target; if it reports no convergence, all its passes are used up. -/
theorem secantLoop_spec {metric : Metric σ} {g : ℚ → ℚ} (hg : IsFunction metric g) (f : ℚ) :
    ∀ (room i : ℕ) (x1 f1 x2 f2 param : ℚ) (s : σ) (o : Outcome σ), 0 < i → f1 = g x1 → f2 = g x2 →
    secantLoop metric f (f + 1 / 10 ^ 12) (f - 1 / 10 ^ 12) room i x1 f1 x2 f2 param s = .ok o →
    0 ≤ o.code →
    o.f1 = g o.x1 ∧ (o.param = o.x1 ∨ (o.x1 = x1 ∧ o.param = param)) ∧
      ((o.code = 0 ∧ Meets f o.f1) ∨ (o.code = i + room)) := by
  intro room
  induction room with
  | zero =>
    intro i x1 f1 x2 f2 param s o hi h1 h2 h hc
    obtain rfl := Except.ok.inj h
    exact ⟨h1, Or.inr ⟨rfl, rfl⟩, Or.inr rfl⟩
  | succ room ih =>
    intro i x1 f1 x2 f2 param s o hi h1 h2 h hc
    rw [secantLoop] at h
    by_cases hm : f1 ≤ f + 1 / 10 ^ 12 ∧ f1 ≥ f - 1 / 10 ^ 12
    · rw [if_pos hm] at h
      obtain rfl := Except.ok.inj h
      exact ⟨h1, Or.inr ⟨rfl, rfl⟩, Or.inl ⟨rfl, meets_iff.mp hm⟩⟩
    · rw [if_neg hm] at h
      by_cases hz : |f1 - f2| < 1 / 10 ^ 20
      · rw [if_pos hz] at h
        obtain rfl := Except.ok.inj h
        exact absurd hc (by simp; omega)
      · rw [if_neg hz, bind_ok_iff] at h
        obtain ⟨r, hr, h⟩ := h
        obtain ⟨s', hs'⟩ := hg (x1 + (x2 - x1) * (f - f1) / (f2 - f1)) s
        rw [hs'] at hr
        obtain rfl := Except.ok.inj hr
        obtain ⟨a1, a2, a3⟩ := ih (i + 1) _ _ _ _ _ _ o (by omega) rfl h1 h hc
        refine ⟨a1, Or.inl ?_, ?_⟩
        · rcases a2 with a2 | ⟨a2, a3⟩
          · exact a2
          · rw [a2, a3]
        · rcases a3 with a3 | a3
          · exact Or.inl a3
          · right; rw [a3]; push_cast; ring

/-- A metric that is the function `g` and counts its evaluations in its state. -/
def Spec.counting (g : ℚ → ℚ) : Metric ℕ := fun x count => .ok (g x, count + 1)

theorem counting_isFunction (g : ℚ → ℚ) : IsFunction (counting g) g := fun _ s => ⟨s + 1, rfl⟩

theorem secantLoop_count {g : ℚ → ℚ} (f fHi fLo : ℚ) :
    ∀ (room i : ℕ) (x1 f1 x2 f2 param : ℚ) (s : ℕ) (o : Outcome ℕ), 0 < i →
    secantLoop (counting g) f fHi fLo room i x1 f1 x2 f2 param s = .ok o → o.code = i + room →
    o.state = s + room := by
  intro room
  induction room with
  | zero =>
    intro i x1 f1 x2 f2 param s o hi h hc
    obtain rfl := Except.ok.inj h
    rfl
  | succ room ih =>
    intro i x1 f1 x2 f2 param s o hi h hc
    rw [secantLoop] at h
    split_ifs at h
    · obtain rfl := Except.ok.inj h
      exact absurd hc (by push_cast; omega)
    · obtain rfl := Except.ok.inj h
      exact absurd hc (by push_cast; omega)
    · rw [bind_ok_iff] at h
      obtain ⟨r, hr, h⟩ := h
      obtain rfl := Except.ok.inj hr
      have := ih (i + 1) _ _ _ _ _ _ o (by omega) h (by rw [hc]; push_cast; ring)
      rw [this]
      ring

/-- The search from two points with known values. -/
theorem secantSearch_spec {g : ℚ → ℚ} {f x0 x1 param : ℚ} {s : ℕ} {o : Outcome ℕ}
    (hn : ¬ Meets f (g x0)) (hp : param = x0 ∨ param = x1)
    (h : secantSearch (counting g) f (f + 1 / 10 ^ 12) (f - 1 / 10 ^ 12) x0 (g x0) x1 (g x1) param s = .ok o)
    (hc : 0 ≤ o.code) :
    Meets f (g o.param) ∨ (o.param = x0 ∧ Meets f (g x1)) ∨ o.state = s + 19 := by
  unfold secantSearch at h
  by_cases hsw : |f - g x0| > |f - g x1|
  · rw [if_pos hsw] at h
    obtain ⟨a1, a2, a3⟩ := secantLoop_spec (counting_isFunction g) f 19 1 x1 _ x0 _ param s o one_pos
      rfl rfl h hc
    rcases a3 with ⟨_, a3⟩ | a3
    · rw [a1] at a3
      rcases a2 with a2 | ⟨a2, a4⟩
      · left; rw [a2]; exact a3
      · rw [a2] at a3
        rcases hp with hp | hp
        · right; left; exact ⟨a4.trans hp, a3⟩
        · left; rw [a4, hp]; exact a3
    · right; right
      exact secantLoop_count f _ _ 19 1 _ _ _ _ _ _ o one_pos h a3
  · rw [if_neg hsw] at h
    obtain ⟨a1, a2, a3⟩ := secantLoop_spec (counting_isFunction g) f 19 1 x0 _ x1 _ param s o one_pos
      rfl rfl h hc
    rcases a3 with ⟨_, a3⟩ | a3
    · rw [a1] at a3
      rcases a2 with a2 | ⟨a2, a4⟩
      · left; rw [a2]; exact a3
      · rw [a2] at a3
        exact absurd a3 hn
    · right; right
      exact secantLoop_count f _ _ 19 1 _ _ _ _ _ _ o one_pos h a3

/-- **C52 (partial).** When the one-parameter fit returns without an error, then the metric meets the target
at the value the parameter was left with; or it meets the target at the first neighbour that was tried, and
the parameter was left unchanged; or the target was not met within the 19 passes allowed.

Missing from the full claim: the second and the third case, which the code does not report
(`C52_neighbour_not_kept`, `C52_not_converged_accepted`). -/
theorem C52_fit_partial (g : ℚ → ℚ) (target increment x0 x : ℚ) (evals : ℕ)
    (h : fitOne (counting g) target increment x0 0 = .ok (x, evals)) :
    Meets target (g x) ∨ (x = x0 ∧ Meets target (g (x0 + increment))) ∨ 21 ≤ evals := by
  unfold fitOne at h
  rw [bind_ok_iff] at h
  obtain ⟨r0, e0, h⟩ := h
  obtain rfl := Except.ok.inj e0
  rw [bind_ok_iff] at h
  obtain ⟨r1, e1, h⟩ := h
  obtain rfl := Except.ok.inj e1
  rw [bind_ok_iff] at h
  obtain ⟨o, eo, h⟩ := h
  by_cases hc : o.code < 0
  · rw [if_pos hc] at h; exact absurd h (by simp)
  rw [if_neg hc] at h
  have hx : o.param = x ∧ o.state = evals := by
    have := Except.ok.inj h
    exact ⟨congrArg Prod.fst this, congrArg Prod.snd this⟩
  obtain ⟨rfl, rfl⟩ := hx
  unfold secant at eo
  have hlo : (if (1 / 10 ^ 12 : ℚ) ≥ 0 then (1 / 10 ^ 12 : ℚ) else 1 / 10 ^ 12) = 1 / 10 ^ 12 := by simp
  simp only [hlo] at eo
  rw [bind_ok_iff] at eo
  obtain ⟨a, ea, eo⟩ := eo
  have ha : a.1 = g x0 ∧ a.2.1 = x0 ∧ 2 ≤ a.2.2 := by
    split_ifs at ea
    · obtain rfl := Except.ok.inj ea
      exact ⟨rfl, rfl, by norm_num⟩
    · obtain rfl := Except.ok.inj ea
      exact ⟨rfl, rfl, by norm_num⟩
  by_cases hm : a.1 ≤ target + 1 / 10 ^ 12 ∧ a.1 ≥ target - 1 / 10 ^ 12
  · rw [if_pos hm] at eo
    rw [meets_iff] at hm
    obtain rfl := Except.ok.inj eo
    left
    rw [ha.1] at hm
    simpa only [ha.2.1] using hm
  · rw [if_neg hm, bind_ok_iff] at eo
    obtain ⟨b, eb, eo⟩ := eo
    have hb : b.1 = g (x0 + increment) ∧ (b.2.1 = x0 ∨ b.2.1 = x0 + increment) ∧ 2 ≤ b.2.2 := by
      split_ifs at eb
      · obtain rfl := Except.ok.inj eb
        exact ⟨rfl, Or.inr rfl, by change 2 ≤ a.2.2 + 1; omega⟩
      · obtain rfl := Except.ok.inj eb
        exact ⟨rfl, Or.inl ha.2.1, ha.2.2⟩
    rw [ha.1, hb.1] at eo
    rw [meets_iff, ha.1] at hm
    rcases secantSearch_spec hm hb.2.1 eo (by omega) with h1 | h1 | h1
    · exact Or.inl h1
    · exact Or.inr (Or.inl h1)
    · right; right; omega

/-- **C52, what the code does instead.** A fit that does not converge is not reported: the metric `1/x`
cannot become 0, but the fit returns without an error, with a value far from the target. -/
theorem C52_not_converged_accepted :
    ∃ r, fitOne (counting fun x => 1 / x) 0 (1 / 10 ^ 9) 1 0 = .ok r ∧
      ¬ |1 / r.1 - 0| ≤ 1 / 10 ^ 5 := by
  decide +kernel

/-- **C52, what the code does instead.** If the neighbour tried first happens to meet the target, the fit
reports success but leaves the parameter at its old value, which does not meet it. -/
theorem C52_neighbour_not_kept :
    fitOne (counting fun x => x) (1 + 1 / 10 ^ 9) (1 / 10 ^ 9) 1 0 = .ok (1, 2) ∧
      ¬ Meets (1 + 1 / 10 ^ 9) 1 := by
  refine ⟨by decide +kernel, ?_⟩
  unfold Meets
  norm_num [abs_of_nonneg, abs_of_nonpos]

/-! ### Straight lines are found -/

theorem line_found {a b f x1 x2 : ℚ} (ha : |a * (x1 - x2)| ≥ 1 / 10 ^ 20) :
    a * (x1 + (x2 - x1) * (f - (a * x1 + b)) / ((a * x2 + b) - (a * x1 + b))) + b = f := by
  have h0 : a * (x2 - x1) ≠ 0 := by
    intro h
    have : a * (x1 - x2) = 0 := by linear_combination -h
    rw [this, abs_zero] at ha
    norm_num at ha
  have ha0 : a ≠ 0 := left_ne_zero_of_mul h0
  have hx0 : x2 - x1 ≠ 0 := right_ne_zero_of_mul h0
  have e : a * x2 + b - (a * x1 + b) = a * (x2 - x1) := by ring
  rw [e]
  field_simp
  ring

theorem secantLoop_line {a b f x1 x2 param : ℚ} {s : ℕ} (ha : |a * (x1 - x2)| ≥ 1 / 10 ^ 20) :
    ∃ o, secantLoop (counting fun x => a * x + b) f (f + 1 / 10 ^ 12) (f - 1 / 10 ^ 12) 19 1
        x1 (a * x1 + b) x2 (a * x2 + b) param s = .ok o ∧ o.code = 0 ∧ o.state ≤ s + 1 := by
  rw [secantLoop]
  by_cases hm : a * x1 + b ≤ f + 1 / 10 ^ 12 ∧ a * x1 + b ≥ f - 1 / 10 ^ 12
  · rw [if_pos hm]; exact ⟨_, rfl, rfl, by simp⟩
  · have hz : ¬ |a * x1 + b - (a * x2 + b)| < 1 / 10 ^ 20 := by
      rw [not_lt]
      have : a * x1 + b - (a * x2 + b) = a * (x1 - x2) := by ring
      rw [this]; exact ha
    rw [if_neg hm, if_neg hz]
    set xN := x1 + (x2 - x1) * (f - (a * x1 + b)) / (a * x2 + b - (a * x1 + b)) with hxN
    have hN : a * xN + b = f := line_found ha
    simp only [counting, bind, Except.bind]
    rw [secantLoop]
    have hm' : a * xN + b ≤ f + 1 / 10 ^ 12 ∧ a * xN + b ≥ f - 1 / 10 ^ 12 := by
      rw [hN]; constructor <;> norm_num
    rw [if_pos hm']
    exact ⟨_, rfl, rfl, le_rfl⟩

/-- **C52.** A metric that depends linearly on the parameter, and not too weakly, is fitted without an
error; the target is met at the value found, unless it is met at the first neighbour tried. -/
theorem C52_linear_fitted (a b target increment x0 : ℚ) (ha : |a * increment| ≥ 1 / 10 ^ 20) :
    ∃ x evals, fitOne (counting fun x => a * x + b) target increment x0 0 = .ok (x, evals) ∧
      (Meets target (a * x + b) ∨ (x = x0 ∧ Meets target (a * (x0 + increment) + b))) := by
  have key : ∃ x evals, fitOne (counting fun x => a * x + b) target increment x0 0 = .ok (x, evals) ∧
      evals ≤ 5 := by
    unfold fitOne
    simp only [counting, bind, Except.bind]
    unfold secant
    have hlo : (if (1 / 10 ^ 12 : ℚ) ≥ 0 then (1 / 10 ^ 12 : ℚ) else 1 / 10 ^ 12) = 1 / 10 ^ 12 := by simp
    simp only [hlo]
    have search : ∀ (param : ℚ) (s : ℕ), ∃ o, secantSearch (counting fun x => a * x + b) target
        (target + 1 / 10 ^ 12) (target - 1 / 10 ^ 12) x0 (a * x0 + b) (x0 + increment)
        (a * (x0 + increment) + b) param s = .ok o ∧ o.code = 0 ∧ o.state ≤ s + 1 := by
      intro param s
      unfold secantSearch
      split_ifs
      · exact secantLoop_line (by
          have : a * (x0 + increment - x0) = a * increment := by ring
          rw [this]; exact ha)
      · exact secantLoop_line (by
          have : a * (x0 - (x0 + increment)) = -(a * increment) := by ring
          rw [this, abs_neg]; exact ha)
    obtain ⟨p, k, hk, e1⟩ : ∃ (p : ℚ) (k : ℕ), k ≤ 3 ∧
        (if a * x0 + b = dblMin then
          (counting (fun x => a * x + b) x0 (0 + 1 + 1)) >>= fun r => Except.ok (r.1, x0, r.2)
          else (Except.ok (a * x0 + b, x0, 0 + 1 + 1) : Res (ℚ × ℚ × ℕ))) = .ok (a * x0 + b, p, k) := by
      split_ifs
      · exact ⟨x0, 3, le_rfl, rfl⟩
      · exact ⟨x0, 2, by norm_num, rfl⟩
    rw [e1]
    simp only [bind, Except.bind]
    by_cases hm : a * x0 + b ≤ target + 1 / 10 ^ 12 ∧ a * x0 + b ≥ target - 1 / 10 ^ 12
    · rw [if_pos hm]
      exact ⟨p, k, by simp, by omega⟩
    · rw [if_neg hm]
      obtain ⟨p', k', hk', e2⟩ : ∃ (p' : ℚ) (k' : ℕ), k' ≤ 4 ∧
          (if a * (x0 + increment) + b = dblMin then
            (counting (fun x => a * x + b) (x0 + increment) k) >>= fun r =>
              Except.ok (r.1, x0 + increment, r.2)
            else (Except.ok (a * (x0 + increment) + b, p, k) : Res (ℚ × ℚ × ℕ))) =
              .ok (a * (x0 + increment) + b, p', k') := by
        split_ifs
        · exact ⟨x0 + increment, k + 1, by omega, rfl⟩
        · exact ⟨p, k, by omega, rfl⟩
      simp only [bind, Except.bind] at e2
      rw [e2]
      obtain ⟨o, h1, h2, h3⟩ := search p' k'
      simp only [h1, h2]
      exact ⟨o.param, o.state, by simp, by omega⟩
  obtain ⟨x, evals, h, hle⟩ := key
  refine ⟨x, evals, h, ?_⟩
  rcases C52_fit_partial _ _ _ _ _ _ h with h1 | h1 | h1
  · exact Or.inl h1
  · exact Or.inr h1
  · omega

/-- The hypothesis of the last theorem, and a fit that ends at a new value. -/
example : |(2 : ℚ) * (1 / 10 ^ 9)| ≥ 1 / 10 ^ 20 ∧
    fitOne (counting fun x => 2 * x + 1) 7 (1 / 10 ^ 9) 1 0 = .ok (3, 3) := by
  constructor
  · norm_num [abs_of_pos]
  · decide +kernel

/-! ### Two parameters -/

/-- A metric of two parameters whose value is a function `g` of these. -/
def Spec.IsFunction2 (metric : Metric2 σ) (g : ℚ → ℚ → ℚ) : Prop :=
  ∀ p q s, ∃ s', metric p q s = .ok (g p q, s')

theorem findError_ok {metric : Metric2 σ} {g : ℚ → ℚ → ℚ} (hg : IsFunction2 metric g) {target p q : ℚ}
    {s : σ} {r : ℚ × σ} (h : findError metric target p q s = .ok r) :
    r.1 = (g p q - target) * 10 ^ 6 := by
  unfold findError at h
  obtain ⟨s', e⟩ := hg p q s
  rw [e] at h
  simp only [bind, Except.bind] at h
  obtain rfl := Except.ok.inj h
  simp

/-- After a pass the figure of merit is that of the parameters as they are. -/
theorem squaresPass_spec {metric : Metric2 σ} {g : ℚ → ℚ → ℚ} (hg : IsFunction2 metric g) {target : ℚ}
    {a b : Squares σ} (h : squaresPass metric target a = .ok b) :
    b.FOM = ((g b.p b.q - target) * 10 ^ 6) * ((g b.p b.q - target) * 10 ^ 6) := by
  unfold squaresPass at h
  rw [bind_ok_iff] at h
  obtain ⟨e, he, h⟩ := h
  rw [bind_ok_iff] at h
  obtain ⟨j, hj, h⟩ := h
  rw [bind_ok_iff] at h
  obtain ⟨t, ht, h⟩ := h
  have he' := findError_ok hg he
  unfold tryIncrements at ht
  have same : ∀ (s : σ) (c : Squares σ), damp { a with FOM := e.1 * e.1, state := j.2.2 } (none, s) = .ok c →
      c.FOM = ((g c.p c.q - target) * 10 ^ 6) * ((g c.p c.q - target) * 10 ^ 6) := by
    intro s c hc
    unfold damp at hc
    split_ifs at hc
    obtain rfl := Except.ok.inj hc
    change e.1 * e.1 = _
    rw [he']
  split at ht
  · obtain rfl := Except.ok.inj ht
    exact same _ _ h
  · rw [bind_ok_iff] at ht
    obtain ⟨e2, he2, ht⟩ := ht
    have he2' := findError_ok hg he2
    split_ifs at ht
    · obtain rfl := Except.ok.inj ht
      obtain rfl := Except.ok.inj h
      change e2.1 * e2.1 = _
      rw [he2']
    · obtain rfl := Except.ok.inj ht
      exact same _ _ h

/-- **C52.** When the two-parameter fit returns without an error, the metric is within 10⁻¹² of the target
at the parameters it leaves. -/
theorem C52_two_parameters {metric : Metric2 σ} {g : ℚ → ℚ → ℚ} (hg : IsFunction2 metric g)
    (target p q incP incQ p' q' : ℚ) (s s' : σ)
    (h : fitTwo metric target p q incP incQ s = .ok (p', q', s')) :
    |g p' q' - target| < 1 / 10 ^ 12 := by
  unfold fitTwo at h
  rw [bind_ok_iff] at h
  obtain ⟨a, ha, h⟩ := h
  have hx := Except.ok.inj h
  obtain ⟨rfl, rfl⟩ : a.p = p' ∧ a.q = q' :=
    ⟨congrArg Prod.fst hx, congrArg (fun y => y.2.1) hx⟩
  have key : ∀ (room : ℕ) (c : Squares σ), squaresLoop metric target room c = .ok a →
      a.FOM < 1 / 10 ^ 12 ∧
        a.FOM = ((g a.p a.q - target) * 10 ^ 6) * ((g a.p a.q - target) * 10 ^ 6) := by
    intro room
    induction room with
    | zero => intro c hc; exact absurd hc (by simp [squaresLoop])
    | succ room ih =>
      intro c hc
      rw [squaresLoop, bind_ok_iff] at hc
      obtain ⟨b, hb, hc⟩ := hc
      split_ifs at hc with hF
      · obtain rfl := Except.ok.inj hc
        exact ⟨hF, squaresPass_spec hg hb⟩
      · exact ih b hc
  obtain ⟨k1, k2⟩ := key 20 _ ha
  rw [k2] at k1
  rw [← sq_lt_sq₀ (abs_nonneg _) (by norm_num), sq_abs]
  have : ((g a.p a.q - target) * 10 ^ 6) * ((g a.p a.q - target) * 10 ^ 6) =
      (g a.p a.q - target) ^ 2 * 10 ^ 12 := by ring
  rw [this] at k1
  have k3 : (g a.p a.q - target) ^ 2 * 10 ^ 12 * 10 ^ 12 < 1 / 10 ^ 12 * 10 ^ 12 :=
    mul_lt_mul_of_pos_right k1 (by norm_num)
  have e2 : (1 / 10 ^ 12 : ℚ) ^ 2 = 1 / 10 ^ 24 := by norm_num
  rw [e2, lt_div_iff₀ (by norm_num)]
  have e3 : (g a.p a.q - target) ^ 2 * 10 ^ 24 = (g a.p a.q - target) ^ 2 * 10 ^ 12 * 10 ^ 12 := by ring
  rw [e3]
  calc _ < _ := k3
    _ = 1 := by norm_num

/-- A two-parameter fit that returns. -/
example : ∃ r, fitTwo (fun p q (s : Unit) => .ok (p + 2 * q, s)) 4 1 1 (1 / 10 ^ 9) (1 / 10 ^ 9) () = .ok r ∧
    r.1 ≠ 1 := by decide +kernel

end Fit

end HPWH
