import Verif.Model.Export
import Verif.Model.HeatSource
import Mathlib.Tactic.Linarith
import Mathlib.Tactic.Ring
import Mathlib.Tactic.FieldSimp

/-! # Weighted distributions with other units of height and weight

Dividing all heights by one number and all weights by another changes nothing that is computed from a
distribution. -/

namespace HPWH

namespace WDist

/-- Heights divided by `h`, weights by `w`. -/
def rescale (h w : ℚ) (d : WDist) : WDist := d.map fun p => ⟨p.height / h, p.weight / w⟩

variable {h w : ℚ}

theorem rescale_nil : rescale h w [] = [] := rfl

theorem rescale_cons (p : DistPoint) (d : WDist) :
    rescale h w (p :: d) = ⟨p.height / h, p.weight / w⟩ :: rescale h w d := rfl

theorem rescale_ne_nil {d : WDist} (hd : d ≠ []) : rescale h w d ≠ [] := by
  cases d with
  | nil => exact absurd rfl hd
  | cons p ps => simp [rescale]

theorem rescale_eq_nil {d : WDist} : rescale h w d = [] ↔ d = [] := by simp [rescale]

theorem rescale_maximumHeight (d : WDist) (hd : d ≠ []) :
    (rescale h w d).maximumHeight (rescale_ne_nil hd) = d.maximumHeight hd / h := by
  simp [maximumHeight, rescale, List.getLast_map]

theorem div_div_same (hh : h ≠ 0) (a b : ℚ) : a / h / (b / h) = a / b := by
  by_cases hb : b = 0
  · simp [hb]
  · field_simp

theorem rescale_totalLoop (hh : h ≠ 0) (hw : w ≠ 0) (prev : ℚ) (d : WDist) :
    totalLoop (prev / h) (rescale h w d) = totalLoop prev d / (h * w) := by
  induction d generalizing prev with
  | nil => simp [rescale, totalLoop]
  | cons p ps ih =>
    rw [rescale_cons, totalLoop, totalLoop, ih]
    field_simp

theorem rescale_weightLoop (hh : h ≠ 0) (hw : w ≠ 0) (maxH b e prev res : ℚ) (d : WDist) :
    weightLoop (maxH / h) b e prev (rescale h w d) (res / w) = weightLoop maxH b e prev d res / w := by
  induction d generalizing prev res with
  | nil => rfl
  | cons p ps ih =>
    rw [rescale_cons, weightLoop, weightLoop]
    simp only [div_div_same hh]
    split_ifs
    · exact ih _ _
    · ring
    · rw [← ih]; congr 1; ring
    · exact ih _ _

theorem rescale_normalizedWeight (hh : h ≠ 0) (hw : w ≠ 0) (d : WDist) (b e : ℚ) :
    (rescale h w d).normalizedWeight b e = d.normalizedWeight b e := by
  unfold normalizedWeight
  by_cases hd : d = []
  · simp [hd, rescale]
  · have hd' : rescale h w d ≠ [] := rescale_ne_nil hd
    simp only [hd, hd', dif_neg, not_false_eq_true, rescale_maximumHeight d hd]
    by_cases hm : d.maximumHeight hd = 0
    · simp [hm]
    · have hm' : d.maximumHeight hd / h ≠ 0 := div_ne_zero hm hh
      have ht := rescale_totalLoop (w := w) hh hw 0 d
      rw [zero_div] at ht
      have hl := rescale_weightLoop (w := w) hh hw (d.maximumHeight hd) b e b 0 d
      rw [zero_div] at hl
      simp only [hm, hm', if_false, ht, hl]
      have e1 : totalLoop 0 d / (h * w) / (d.maximumHeight hd / h)
          = totalLoop 0 d / d.maximumHeight hd / w := by field_simp
      rw [e1]
      by_cases h0 : totalLoop 0 d / d.maximumHeight hd = 0
      · simp [h0]
      · have h0' : totalLoop 0 d / d.maximumHeight hd / w ≠ 0 := div_ne_zero h0 hw
        simp only [h0, h0', if_false, div_div_same hw]

theorem rescale_lowestLoop (hh : h ≠ 0) (hw : w ≠ 0) (d : WDist) (N j room : ℕ) :
    lowestLoop (rescale h w d) N j room = lowestLoop d N j room := by
  induction room generalizing j with
  | zero => rfl
  | succ room ih => simp only [lowestLoop, rescale_normalizedWeight hh hw, ih]

theorem rescale_findLowestNode (hh : h ≠ 0) (hw : w ≠ 0) (d : WDist) (N : ℕ) :
    (rescale h w d).findLowestNode N = d.findLowestNode N := rescale_lowestLoop hh hw d N 0 N

theorem rescale_nodeShare (hh : h ≠ 0) (hw : w ≠ 0) (d : WDist) (N i : ℕ) :
    (rescale h w d).nodeShare N i = d.nodeShare N i := rescale_normalizedWeight hh hw d _ _

theorem rescale_calcHeatDist (hh : h ≠ 0) (hw : w ≠ 0) (d : WDist) (N : ℕ) :
    (rescale h w d).calcHeatDist N = d.calcHeatDist N := by
  simp only [calcHeatDist, rescale_nodeShare hh hw]

theorem rescale_entropyLoop (hh : h ≠ 0) (hw : w ≠ 0) (log : ℚ → ℚ) (d : WDist) (N i room : ℕ) (e : ℚ) :
    Sim.entropyLoop log (rescale h w d) N i room e = Sim.entropyLoop log d N i room e := by
  induction room generalizing i e with
  | zero => rfl
  | succ room ih => simp only [Sim.entropyLoop, rescale_nodeShare hh hw, ih]

theorem rescale_findShrinkage (hh : h ≠ 0) (hw : w ≠ 0) (log : ℚ → ℚ) (d : WDist) (N : ℕ) :
    Sim.findShrinkage log (rescale h w d) N = Sim.findShrinkage log d N := by
  simp only [Sim.findShrinkage, rescale_entropyLoop hh hw]

theorem rescale_isValidLoop (hh : 0 < h) (prev : ℚ) (d : WDist) :
    isValidLoop (prev / h) (rescale h w d) = isValidLoop prev d := by
  induction d generalizing prev with
  | nil => rfl
  | cons p ps ih =>
    rw [rescale_cons, isValidLoop, isValidLoop, ih]
    congr 1
    rw [decide_eq_decide]
    exact div_lt_div_iff_of_pos_right hh

theorem rescale_isValid (hh : 0 < h) (hw : 0 < w) (d : WDist) : (rescale h w d).isValid = d.isValid := by
  unfold isValid
  have h1 : isValidLoop 0 (rescale h w d) = isValidLoop 0 d := by
    have := rescale_isValidLoop (w := w) hh 0 d
    rwa [zero_div] at this
  have h2 : (rescale h w d).isEmpty = d.isEmpty := by cases d <;> rfl
  have h3 : (rescale h w d).any (fun p => decide (p.weight > 0)) = d.any fun p => decide (p.weight > 0) := by
    unfold rescale
    rw [List.any_map]
    congr 1
    funext p
    simp only [Function.comp, decide_eq_decide]
    exact div_pos_iff_of_pos_right hw
  rw [h1, h2, h3]

theorem rescale_avgInner (hh : h ≠ 0) (hw : 0 < w) (maxH next T normH sum tot : ℚ) (d : WDist) :
    avgInner (maxH / h) next T normH (rescale h w d) (sum / w) (tot / w)
      = (avgInner maxH next T normH d sum tot).map fun r => (rescale h w r.1, r.2.1 / w, r.2.2 / w) := by
  induction d generalizing normH sum tot with
  | nil => rfl
  | cons p ps ih =>
    rw [rescale_cons, avgInner, avgInner]
    simp only [div_div_same hh]
    have hpos : ∀ x : ℚ, p.weight / w * x > 0 ↔ p.weight * x > 0 := fun x => by
      rw [div_mul_eq_mul_div]; exact div_pos_iff_of_pos_right hw
    have hs : ∀ x y : ℚ, y / w + p.weight / w * x * T = (y + p.weight * x * T) / w := fun x y => by ring
    have ht : ∀ x y : ℚ, y / w + p.weight / w * x = (y + p.weight * x) / w := fun x y => by ring
    simp only [hpos, hs, ht]
    split_ifs
    · exact ih _ _ _
    · exact ih _ _ _
    · rfl
    · rfl

theorem rescale_avgOuter (hh : h ≠ 0) (hw : 0 < w) {N : ℕ} (maxH : ℚ) (T : Fin N → ℚ) (i room : ℕ)
    (hi : i + room = N) (sum tot : ℚ) (d : WDist) :
    avgOuter (maxH / h) T i room hi (rescale h w d) (sum / w) (tot / w)
      = (avgOuter maxH T i room hi d sum tot).map fun r => (r.1 / w, r.2 / w) := by
  induction room generalizing i sum tot d with
  | zero => rfl
  | succ room ih =>
    rw [avgOuter, avgOuter, rescale_avgInner hh hw]
    cases avgInner maxH (((i + 1 : ℕ) : ℚ) / N) (T ⟨i, by omega⟩) ((i : ℚ) / N) d sum tot with
    | error e => rfl
    | ok r => exact ih _ _ _ _ _

theorem rescale_averageT (hh : h ≠ 0) (hw : 0 < w) {N : ℕ} (d : WDist) (T : Fin N → ℚ) :
    (rescale h w d).averageT T = d.averageT T := by
  unfold averageT
  by_cases hd : d = []
  · simp [hd, rescale]
  · have hd' : rescale h w d ≠ [] := rescale_ne_nil hd
    simp only [hd, hd', dif_neg, not_false_eq_true, rescale_maximumHeight d hd]
    by_cases hm : d.maximumHeight hd = 0
    · simp [hm]
    · have hm' : d.maximumHeight hd / h ≠ 0 := div_ne_zero hm hh
      have ha := rescale_avgOuter hh hw (d.maximumHeight hd) T 0 N (by omega) 0 0 d
      rw [zero_div] at ha
      simp only [hm, hm', if_false, ha]
      cases avgOuter (d.maximumHeight hd) T 0 N (by omega) d 0 0 with
      | error e => rfl
      | ok r =>
        simp only [Except.map]
        by_cases h0 : r.2 = 0
        · simp [h0]
        · have h0' : r.2 / w ≠ 0 := div_ne_zero h0 hw.ne'
          simp only [h0, h0', if_false, div_div_same hw.ne']

theorem rescale_avgFractLoop (hh : h ≠ 0) (hw : w ≠ 0) (prev a b : ℚ) (d : WDist) :
    Sim.avgFractLoop (prev / h) (rescale h w d) (a / (h * h * w)) (b / (h * w))
      = ((Sim.avgFractLoop prev d a b).1 / (h * h * w), (Sim.avgFractLoop prev d a b).2.1 / (h * w),
          (Sim.avgFractLoop prev d a b).2.2 / h) := by
  induction d generalizing prev a b with
  | nil => rfl
  | cons p ps ih =>
    rw [rescale_cons, Sim.avgFractLoop, Sim.avgFractLoop]
    simp only
    rw [← ih]
    congr 1 <;> field_simp

end WDist

namespace Logic

variable {n : ℕ} {h w : ℚ}

theorem rescale_fractLoop (hh : h ≠ 0) (hw : w ≠ 0) (d : WDist) (T : Nodes n ℚ) (i room : ℕ)
    (hi : i + room = n + 1) (first : Option (Fin (n + 1))) (last : Fin (n + 1)) (sum tot : ℚ) :
    fractLoop (d.rescale h w) T i room hi first last sum tot = fractLoop d T i room hi first last sum tot := by
  induction room generalizing i first last sum tot with
  | zero => rfl
  | succ room ih => simp only [fractLoop, WDist.rescale_normalizedWeight hh hw, ih]

theorem rescale_fractNodes (hh : h ≠ 0) (hw : w ≠ 0) (d : WDist) (T : Nodes n ℚ) :
    fractNodes T (.weighted (d.rescale h w)) = fractNodes T (.weighted d) := by
  simp only [fractNodes, rescale_fractLoop hh hw]

end Logic

end HPWH
