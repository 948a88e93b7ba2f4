import Verif.Model.Settings
import Verif.Spec.Settings
import Verif.Lemmas.WDist
import Verif.Lemmas.HeatSource
import Verif.Lemmas.Frame

/-! Helper lemmas about the values derived from the heat sources. -/

namespace HPWH

open Spec

variable {n k : ℕ}

namespace WDist

theorem lowestHeightLoop_valid {maxH : ℚ} (hM : 0 < maxH) {d : WDist} {L : ℚ} (hL : 0 ≤ L)
    (h : isValidLoop L d = true) (hle : ∀ p ∈ d, p.height ≤ maxH) (hx : ∃ p ∈ d, p.weight > 0) :
    ∃ x, lowestHeightLoop maxH L d = .ok x ∧ L / maxH ≤ x ∧ x < 1 := by
  induction d generalizing L with
  | nil => obtain ⟨p, hp, _⟩ := hx; cases hp
  | cons p ps ih =>
    simp only [isValidLoop, Bool.and_eq_true, decide_eq_true_eq] at h
    have hpL : L < p.height := h.1
    have hp := hle p (List.mem_cons_self ..)
    simp only [lowestHeightLoop]
    by_cases hw : p.weight > 0
    · simp only [hw, ↓reduceIte, hM.ne']
      exact ⟨_, rfl, le_rfl, by rw [div_lt_one hM]; linarith⟩
    · simp only [hw, ↓reduceIte]
      obtain ⟨q, hq, hq0⟩ := hx
      rcases List.mem_cons.mp hq with rfl | hq'
      · exact absurd hq0 hw
      · obtain ⟨x, e, h1, h2⟩ := ih (hL.trans hpL.le) h.2
          (fun q hq => hle q (List.mem_cons_of_mem _ hq)) ⟨q, hq', hq0⟩
        exact ⟨x, e, (div_le_div_of_nonneg_right hpL.le hM.le).trans h1, h2⟩

theorem lowestNormalizedHeight_valid {d : WDist} (h : d.isValid = true) :
    ∃ x, d.lowestNormalizedHeight = .ok x ∧ 0 ≤ x ∧ x < 1 := by
  obtain ⟨hd, hx, hv⟩ := isValid_iff.mp h
  obtain ⟨hM, hle⟩ := last_ge hd hv
  obtain ⟨x, e, h1, h2⟩ := lowestHeightLoop_valid hM le_rfl hv hle hx
  refine ⟨x, ?_, by simpa using h1, h2⟩
  rw [lowestNormalizedHeight, dif_neg hd, e]

theorem lowestHeightLoop_heats {maxH : ℚ} (hM : 0 < maxH) {d : WDist} {L x : ℚ} (hL : 0 ≤ L)
    (h : isValidLoop L d = true) (hle : ∀ p ∈ d, p.height ≤ maxH) (hx : ∃ p ∈ d, p.weight > 0)
    (hw : ∀ p ∈ d, 0 ≤ p.weight) (e : lowestHeightLoop maxH L d = .ok x) {y : ℚ} (hy : 0 ≤ y) :
    densityIntegral (L / maxH) (pts maxH d) 0 y = 0 ↔ y ≤ x := by
  induction d generalizing L with
  | nil => obtain ⟨p, hp, _⟩ := hx; cases hp
  | cons p ps ih =>
    have hasc := ascending_pts hM h
    have hmono := lowestHeightLoop_valid hM hL h hle hx
    simp only [isValidLoop, Bool.and_eq_true, decide_eq_true_eq] at h
    have hpL : L < p.height := h.1
    have hdI : densityIntegral (L / maxH) (pts maxH (p :: ps)) 0 y =
        p.weight * overlap (L / maxH) (p.height / maxH) 0 y +
          densityIntegral (p.height / maxH) (pts maxH ps) 0 y := rfl
    have hps : 0 ≤ densityIntegral (p.height / maxH) (pts maxH ps) 0 y := by
      apply densityIntegral_nonneg
      intro q hq
      obtain ⟨r, hr, rfl⟩ := List.mem_map.mp hq
      exact hw r (List.mem_cons_of_mem _ hr)
    simp only [lowestHeightLoop] at e
    by_cases hp0 : p.weight > 0
    · simp only [hp0, ↓reduceIte, hM.ne', Except.ok.injEq] at e
      subst e
      constructor
      · intro h0
        by_contra hlt
        have hlt := not_le.mp hlt
        have hL' : 0 ≤ L / maxH := by positivity
        have : 0 < overlap (L / maxH) (p.height / maxH) 0 y := by
          have h2 : L / maxH < p.height / maxH := div_lt_div_of_pos_right hpL hM
          unfold overlap
          rw [max_eq_left hL']
          have := lt_min h2 hlt
          exact lt_max_of_lt_right (by linarith)
        have := mul_pos hp0 this
        linarith
      · intro hle'
        exact densityIntegral_right hasc hle'
    · simp only [hp0, ↓reduceIte] at e
      have hp00 : p.weight = 0 := le_antisymm (not_lt.mp hp0) (hw p (List.mem_cons_self ..))
      obtain ⟨q, hq, hq0⟩ := hx
      have hq' : q ∈ ps := by
        rcases List.mem_cons.mp hq with rfl | hq'
        · exact absurd hq0 hp0
        · exact hq'
      rw [hdI, hp00, zero_mul, zero_add]
      exact ih (hL.trans hpL.le) h.2 (fun q hq => hle q (List.mem_cons_of_mem _ hq)) ⟨q, hq', hq0⟩
        (fun p hp => hw p (List.mem_cons_of_mem _ hp)) e

theorem lowestNormalizedHeight_heats {d : WDist} (h : d.Proper) {x : ℚ}
    (e : d.lowestNormalizedHeight = .ok x) : HeatsFrom d x := by
  obtain ⟨hd, hx, hv⟩ := isValid_iff.mp h.valid
  obtain ⟨hM, hle⟩ := last_ge hd hv
  obtain ⟨x', e', h1, h2⟩ := lowestNormalizedHeight_valid h.valid
  cases e.symm.trans e'
  refine ⟨h1, h2, fun y hy hy1 => ?_⟩
  rw [lowestNormalizedHeight, dif_neg hd] at e
  have := lowestHeightLoop_heats hM le_rfl hv hle hx h.nonneg e hy
  rwa [zero_div, ← rel_eq hd] at this

end WDist

theorem HeatsFrom.unique {d : WDist} {a b : ℚ} (ha : HeatsFrom d a) (hb : HeatsFrom d b) :
    a = b := by
  have h1 := (hb.2.2 a ha.1 ha.2.1.le).mp ((ha.2.2 a ha.1 ha.2.1.le).mpr le_rfl)
  have h2 := (ha.2.2 b hb.1 hb.2.1.le).mp ((hb.2.2 b hb.1 hb.2.1.le).mpr le_rfl)
  exact le_antisymm h1 h2

/-! ## Index search -/

/-- What the index search knows after the heat sources in `pre`. -/
structure IndexInv (src : Fin k → SourceCfg n k) (pre : List (Fin k)) (a : Indices k) : Prop where
  comp_some : ∀ i, a.compressor = some i → i ∈ pre ∧ (∃ c, IsHeatPump (src i) c) ∧
    ∀ j ∈ pre, (∃ c, IsHeatPump (src j) c) → j ≤ i
  comp_none : a.compressor = none → ∀ j ∈ pre, ¬ ∃ c, IsHeatPump (src j) c
  vip_some : ∀ i, a.vip = some i → i ∈ pre ∧ (IsElement (src i) ∧ (src i).isVIP = true) ∧
    ∀ j ∈ pre, IsElement (src j) → (src j).isVIP = true → i ≤ j
  vip_none : a.vip = none → ∀ j ∈ pre, ¬ (IsElement (src j) ∧ (src j).isVIP = true)
  low_some : ∀ i, a.lowest = some i → i ∈ pre ∧ IsElement (src i) ∧
    (src i).heatDist.lowestNormalizedHeight = .ok a.lowestPos ∧
    ∀ j ∈ pre, IsElement (src j) → ∀ x, (src j).heatDist.lowestNormalizedHeight = .ok x →
      a.lowestPos ≤ x ∧ (j < i → a.lowestPos < x)
  low_none : a.lowest = none → a.lowestPos = 1 ∧ ∀ j ∈ pre, IsElement (src j) →
    ∀ x, (src j).heatDist.lowestNormalizedHeight = .ok x → 1 ≤ x

theorem IndexInv.step {src : Fin k → SourceCfg n k} {pre : List (Fin k)} {a a' : Indices k}
    {i : Fin k} (h : IndexInv src pre a) (hlt : ∀ j ∈ pre, j < i)
    (e : indexStep src a i = .ok a') : IndexInv src (pre ++ [i]) a' := by
  unfold indexStep at e
  cases hk : (src i).kind with
  | condenser c =>
    simp only [hk, Except.ok.injEq] at e
    subst e
    have hne : ¬ IsElement (src i) := by
      rintro ⟨p, hp⟩; rw [hk] at hp; cases hp
    refine ⟨?_, ?_, ?_, ?_, ?_, ?_⟩
    · intro j hj
      cases Option.some.inj hj
      refine ⟨by simp, ⟨c, hk⟩, fun j hj _ => ?_⟩
      rcases List.mem_append.mp hj with hj | hj
      · exact (hlt j hj).le
      · rw [List.mem_singleton.mp hj]
    · intro hn; cases hn
    · intro j hj
      obtain ⟨h1, h2, h3⟩ := h.vip_some j hj
      refine ⟨List.mem_append_left _ h1, h2, fun l hl hl1 hl2 => ?_⟩
      rcases List.mem_append.mp hl with hl | hl
      · exact h3 l hl hl1 hl2
      · rw [List.mem_singleton.mp hl] at hl1; exact absurd hl1 hne
    · intro hn l hl hl1
      rcases List.mem_append.mp hl with hl | hl
      · exact h.vip_none hn l hl hl1
      · rw [List.mem_singleton.mp hl] at hl1; exact hne hl1.1
    · intro j hj
      obtain ⟨h1, h2, h3, h4⟩ := h.low_some j hj
      refine ⟨List.mem_append_left _ h1, h2, h3, fun l hl hl1 => ?_⟩
      rcases List.mem_append.mp hl with hl | hl
      · exact h4 l hl hl1
      · rw [List.mem_singleton.mp hl] at hl1; exact absurd hl1 hne
    · intro hn
      obtain ⟨h1, h2⟩ := h.low_none hn
      refine ⟨h1, fun l hl hl1 => ?_⟩
      rcases List.mem_append.mp hl with hl | hl
      · exact h2 l hl hl1
      · rw [List.mem_singleton.mp hl] at hl1; exact absurd hl1 hne
  | resistance p =>
    simp only [hk] at e
    obtain ⟨pos, hpos, e⟩ := (bind_ok_iff _ _ _).mp e
    cases e
    have hel : IsElement (src i) := ⟨p, hk⟩
    have hnc : ¬ ∃ c, IsHeatPump (src i) c := by
      rintro ⟨c, hc⟩; rw [IsHeatPump, hk] at hc; cases hc
    refine ⟨?_, ?_, ?_, ?_, ?_, ?_⟩
    · intro j hj
      obtain ⟨h1, h2, h3⟩ := h.comp_some j hj
      refine ⟨List.mem_append_left _ h1, h2, fun l hl hl1 => ?_⟩
      rcases List.mem_append.mp hl with hl | hl
      · exact h3 l hl hl1
      · rw [List.mem_singleton.mp hl] at hl1; exact absurd hl1 hnc
    · intro hn l hl hl1
      rcases List.mem_append.mp hl with hl | hl
      · exact h.comp_none hn l hl hl1
      · rw [List.mem_singleton.mp hl] at hl1; exact hnc hl1
    · intro j hj
      dsimp only at hj
      by_cases hv : (src i).isVIP = true ∧ a.vip = none
      · rw [if_pos hv] at hj
        cases Option.some.inj hj
        refine ⟨by simp, ⟨hel, hv.1⟩, fun l hl hl1 hl2 => ?_⟩
        rcases List.mem_append.mp hl with hl | hl
        · exact absurd ⟨hl1, hl2⟩ (h.vip_none hv.2 l hl)
        · rw [List.mem_singleton.mp hl]
      · rw [if_neg hv] at hj
        obtain ⟨h1, h2, h3⟩ := h.vip_some j hj
        refine ⟨List.mem_append_left _ h1, h2, fun l hl hl1 hl2 => ?_⟩
        rcases List.mem_append.mp hl with hl | hl
        · exact h3 l hl hl1 hl2
        · rw [List.mem_singleton.mp hl]; exact (hlt j h1).le
    · intro hn l hl hl1
      dsimp only at hn
      by_cases hv : (src i).isVIP = true ∧ a.vip = none
      · rw [if_pos hv] at hn; cases hn
      · rw [if_neg hv] at hn
        rcases List.mem_append.mp hl with hl | hl
        · exact h.vip_none hn l hl hl1
        · rw [List.mem_singleton.mp hl] at hl1; exact hv ⟨hl1.2, hn⟩
    · intro j hj
      dsimp only at hj ⊢
      by_cases hv : pos < a.lowestPos
      · simp only [hv, ↓reduceIte] at hj ⊢
        cases Option.some.inj hj
        refine ⟨by simp, hel, hpos, fun l hl hl1 x hx => ?_⟩
        rcases List.mem_append.mp hl with hl | hl
        · have : a.lowestPos ≤ x := by
            cases hlow : a.lowest with
            | none => rw [(h.low_none hlow).1]; exact (h.low_none hlow).2 l hl hl1 x hx
            | some m => exact ((h.low_some m hlow).2.2.2 l hl hl1 x hx).1
          exact ⟨by linarith, fun _ => by linarith⟩
        · rw [List.mem_singleton.mp hl] at hx ⊢
          cases hx.symm.trans hpos
          exact ⟨le_rfl, fun h => absurd h (lt_irrefl _)⟩
      · simp only [hv, ↓reduceIte] at hj ⊢
        obtain ⟨h1, h2, h3, h4⟩ := h.low_some j hj
        refine ⟨List.mem_append_left _ h1, h2, h3, fun l hl hl1 x hx => ?_⟩
        rcases List.mem_append.mp hl with hl | hl
        · exact h4 l hl hl1 x hx
        · rw [List.mem_singleton.mp hl] at hx ⊢
          cases hx.symm.trans hpos
          exact ⟨not_lt.mp hv, fun hji => absurd hji (hlt j h1).asymm⟩
    · intro hn
      dsimp only at hn ⊢
      by_cases hv : pos < a.lowestPos
      · simp only [hv, ↓reduceIte, reduceCtorEq] at hn
      · simp only [hv, ↓reduceIte] at hn ⊢
        obtain ⟨h1, h2⟩ := h.low_none hn
        refine ⟨h1, fun l hl hl1 x hx => ?_⟩
        rcases List.mem_append.mp hl with hl | hl
        · exact h2 l hl hl1 x hx
        · rw [List.mem_singleton.mp hl] at hx
          cases hx.symm.trans hpos
          rw [← h1]; exact not_lt.mp hv

theorem IndexInv.fold {src : Fin k → SourceCfg n k} (l pre : List (Fin k)) {a a' : Indices k}
    (hs : (pre ++ l).Pairwise (· < ·)) (h : IndexInv src pre a)
    (e : l.foldlM (indexStep src) a = .ok a') : IndexInv src (pre ++ l) a' := by
  induction l generalizing pre a with
  | nil => cases e; simpa using h
  | cons i l ih =>
    rw [List.foldlM_cons] at e
    obtain ⟨b, hb, e⟩ := (bind_ok_iff _ _ _).mp e
    have hlt : ∀ j ∈ pre, j < i := fun j hj =>
      (List.pairwise_append.mp hs).2.2 j hj i (List.mem_cons_self ..)
    have := ih (pre ++ [i]) (by simpa using hs) (h.step hlt hb) e
    simpa using this

theorem findIndices_inv {src : Fin k → SourceCfg n k} {a : Indices k}
    (e : findIndices src = .ok a) : IndexInv src (List.finRange k) a := by
  have := IndexInv.fold (src := src) (List.finRange k) [] (a := ⟨none, none, none, none, 1, 0⟩)
    (by simpa using List.pairwise_lt_finRange k)
    ⟨by simp, by simp, by simp, by simp, by simp, by simp⟩ e
  simpa using this

end HPWH
