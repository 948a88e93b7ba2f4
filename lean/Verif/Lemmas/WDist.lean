import Verif.Lemmas.Normalize
import Verif.Spec.Distribution

/-! Helper lemmas about weighted distributions. -/

namespace HPWH

open Spec

/-- Heights strictly increasing, all above `L`. -/
def Ascending : ℚ → List (ℚ × ℚ) → Prop
  | _, [] => True
  | L, (h, _) :: ds => L < h ∧ Ascending h ds

theorem densityIntegral_self (L : ℚ) (ds : List (ℚ × ℚ)) (a : ℚ) :
    densityIntegral L ds a a = 0 := by
  induction ds generalizing L with
  | nil => rfl
  | cons p ds ih =>
    obtain ⟨h, w⟩ := p
    rw [densityIntegral, overlap_self, ih]; ring

theorem densityIntegral_add {L : ℚ} {ds : List (ℚ × ℚ)} (hs : Ascending L ds) {a b c : ℚ}
    (hab : a ≤ b) (hbc : b ≤ c) :
    densityIntegral L ds a b + densityIntegral L ds b c = densityIntegral L ds a c := by
  induction ds generalizing L with
  | nil => simp [densityIntegral]
  | cons p ds ih =>
    obtain ⟨h, w⟩ := p
    simp only [densityIntegral]
    rw [← overlap_add L h hs.1.le hab hbc, ← ih hs.2]
    ring

theorem densityIntegral_nonneg (L : ℚ) {ds : List (ℚ × ℚ)} (hw : ∀ p ∈ ds, 0 ≤ p.2) (a b : ℚ) :
    0 ≤ densityIntegral L ds a b := by
  induction ds generalizing L with
  | nil => exact le_rfl
  | cons p ds ih =>
    obtain ⟨h, w⟩ := p
    simp only [densityIntegral]
    have h1 := hw (h, w) (List.mem_cons_self ..)
    have h2 := ih h (fun p hp => hw p (List.mem_cons_of_mem _ hp))
    have h3 := overlap_nonneg L h a b
    have := mul_nonneg h1 h3
    linarith

theorem densityIntegral_right {L : ℚ} {ds : List (ℚ × ℚ)} (hs : Ascending L ds) {a b : ℚ}
    (h : b ≤ L) : densityIntegral L ds a b = 0 := by
  induction ds generalizing L with
  | nil => rfl
  | cons p ds ih =>
    obtain ⟨h', w⟩ := p
    simp only [densityIntegral]
    rw [overlap_disjoint_right h, ih hs.2 (h.trans hs.1.le)]
    ring

/-- Total over any range containing all the heights. -/
theorem densityIntegral_all {L : ℚ} {ds : List (ℚ × ℚ)} (hs : Ascending L ds) {a b : ℚ}
    (ha : a ≤ L) (hb : ∀ p ∈ ds, p.1 ≤ b) :
    densityIntegral L ds a b = densityIntegral L ds L b := by
  induction ds generalizing L a with
  | nil => rfl
  | cons p ds ih =>
    obtain ⟨h', w⟩ := p
    simp only [densityIntegral]
    have hb' := hb (h', w) (List.mem_cons_self ..)
    rw [overlap_contains ha hb' hs.1.le, overlap_contains le_rfl hb' hs.1.le,
      ih hs.2 (ha.trans hs.1.le) (fun p hp => hb p (List.mem_cons_of_mem _ hp)),
      ih (a := L) hs.2 hs.1.le (fun p hp => hb p (List.mem_cons_of_mem _ hp))]

theorem densityIntegral_pos {L : ℚ} {ds : List (ℚ × ℚ)} (hs : Ascending L ds)
    (hw : ∀ p ∈ ds, 0 ≤ p.2) (hx : ∃ p ∈ ds, 0 < p.2) {a b : ℚ} (ha : a ≤ L)
    (hb : ∀ p ∈ ds, p.1 ≤ b) : 0 < densityIntegral L ds a b := by
  induction ds generalizing L with
  | nil => obtain ⟨p, hp, _⟩ := hx; cases hp
  | cons p ds ih =>
    obtain ⟨h, w⟩ := p
    simp only [densityIntegral]
    have hb' : h ≤ b := hb (h, w) (List.mem_cons_self ..)
    have hw' : 0 ≤ w := hw (h, w) (List.mem_cons_self ..)
    rw [overlap_contains ha hb' hs.1.le]
    have h3 : 0 < h - L := by linarith [hs.1]
    have h2 := densityIntegral_nonneg h (fun p hp => hw p (List.mem_cons_of_mem _ hp)) a b
    obtain ⟨q, hq, hq0⟩ := hx
    rcases List.mem_cons.mp hq with rfl | hq'
    · have := mul_pos hq0 h3
      linarith
    · have := ih hs.2 (fun p hp => hw p (List.mem_cons_of_mem _ hp)) ⟨q, hq', hq0⟩
        (ha.trans hs.1.le) (fun p hp => hb p (List.mem_cons_of_mem _ hp))
      have := mul_nonneg hw' h3.le
      linarith

namespace WDist

/-- Points with heights relative to `maxH`. -/
def pts (maxH : ℚ) (d : WDist) : List (ℚ × ℚ) := d.map fun p => (p.height / maxH, p.weight)

theorem ascending_pts {maxH : ℚ} (hM : 0 < maxH) {d : WDist} {L : ℚ}
    (h : isValidLoop L d = true) : Ascending (L / maxH) (pts maxH d) := by
  induction d generalizing L with
  | nil => trivial
  | cons p ps ih =>
    simp only [isValidLoop, Bool.and_eq_true, decide_eq_true_eq] at h
    exact ⟨div_lt_div_of_pos_right h.1 hM, ih h.2⟩

theorem last_ge {d : WDist} (hd : d ≠ []) {L : ℚ} (h : isValidLoop L d = true) :
    L < d.maximumHeight hd ∧ ∀ p ∈ d, p.height ≤ d.maximumHeight hd := by
  induction d generalizing L with
  | nil => exact absurd rfl hd
  | cons p ps ih =>
    simp only [isValidLoop, Bool.and_eq_true, decide_eq_true_eq] at h
    rcases ps with _ | ⟨q, qs⟩
    · simp only [maximumHeight, List.getLast_singleton, List.mem_singleton, forall_eq, le_refl,
        and_true]
      exact h.1
    · have := ih (by simp) h.2
      have e : maximumHeight (p :: q :: qs) hd = maximumHeight (q :: qs) (by simp) := by
        simp [maximumHeight]
      rw [e]
      refine ⟨h.1.trans this.1, ?_⟩
      intro x hx
      rcases List.mem_cons.mp hx with rfl | hx
      · exact this.1.le
      · exact this.2 x hx

theorem totalLoop_eq {maxH : ℚ} (hM : 0 < maxH) {d : WDist} {L : ℚ} (hL : 0 ≤ L)
    (h : isValidLoop L d = true) (hle : ∀ p ∈ d, p.height ≤ maxH) :
    totalLoop L d / maxH = densityIntegral (L / maxH) (pts maxH d) 0 1 := by
  induction d generalizing L with
  | nil => simp [totalLoop, pts, densityIntegral]
  | cons p ps ih =>
    simp only [isValidLoop, Bool.and_eq_true, decide_eq_true_eq] at h
    have hp := hle p (List.mem_cons_self ..)
    have hpL : L < p.height := h.1
    simp only [totalLoop, pts, List.map_cons, densityIntegral]
    rw [overlap_contains (by positivity) (by rw [div_le_one hM]; exact hp)
      (div_le_div_of_nonneg_right hpL.le hM.le), add_div,
      ih (hL.trans hpL.le) h.2 (fun q hq => hle q (List.mem_cons_of_mem _ hq))]
    simp only [pts]
    ring

theorem weightLoop_eq (maxH a b : ℚ) {d : WDist} {L prev res : ℚ}
    (h : Ascending L (pts maxH d)) (hprev : prev = max a L) (hb : prev ≤ b) :
    weightLoop maxH a b prev d res = res + densityIntegral L (pts maxH d) a b := by
  induction d generalizing L prev res with
  | nil => simp [weightLoop, pts, densityIntegral]
  | cons p ps ih =>
    have hs : L < p.height / maxH := h.1
    have ht : Ascending (p.height / maxH) (pts maxH ps) := h.2
    have hab : a ≤ b := (hprev ▸ le_max_left a L : a ≤ prev).trans hb
    have haL : L ≤ prev := hprev ▸ le_max_right a L
    have hap : a ≤ prev := hprev ▸ le_max_left a L
    have hdI : densityIntegral L (pts maxH (p :: ps)) a b =
        p.weight * overlap L (p.height / maxH) a b +
          densityIntegral (p.height / maxH) (pts maxH ps) a b := rfl
    rw [weightLoop, hdI]
    by_cases c1 : p.height / maxH < a
    · simp only [c1, if_true]
      rw [ih ht (by rw [hprev, max_eq_left c1.le, max_eq_left (hs.trans c1).le]) hb,
        overlap_disjoint_left c1.le]
      ring
    · simp only [c1, if_false]
      have c1' := not_lt.mp c1
      by_cases c2 : p.height / maxH > prev
      · simp only [c2, if_true]
        by_cases c3 : p.height / maxH > b
        · simp only [c3, if_true]
          have e1 : overlap L (p.height / maxH) a b = b - prev := by
            unfold overlap
            rw [min_eq_right (le_of_lt c3), max_comm L a, ← hprev, max_eq_right (by linarith)]
          rw [e1, densityIntegral_right ht (le_of_lt c3)]
          ring
        · simp only [c3, if_false]
          have c3' := not_lt.mp c3
          have e1 : overlap L (p.height / maxH) a b = p.height / maxH - prev := by
            unfold overlap
            rw [min_eq_left c3', max_comm L a, ← hprev, max_eq_right (by linarith)]
          rw [ih ht (max_eq_right c1').symm c3', e1]
          ring
      · simp only [c2, if_false]
        have c2' := not_lt.mp c2
        have e0 : p.height / maxH = prev := by
          refine le_antisymm c2' ?_
          rw [hprev]
          exact max_le c1' hs.le
        have e1 : overlap L (p.height / maxH) a b = 0 := by
          unfold overlap
          rw [min_eq_left (e0 ▸ hb), max_comm L a, ← hprev, e0]
          simp
        rw [ih ht (max_eq_right c1').symm (c2'.trans hb), e1]
        ring

theorem isValid_iff {d : WDist} : d.isValid = true ↔
    d ≠ [] ∧ (∃ p ∈ d, p.weight > 0) ∧ isValidLoop 0 d = true := by
  unfold isValid
  rcases d with _ | ⟨p, ps⟩
  · simp
  · simp only [List.isEmpty_cons, Bool.not_false, Bool.true_and, Bool.and_eq_true, List.any_eq_true,
      decide_eq_true_eq, ne_eq, reduceCtorEq, not_false_eq_true, true_and]

theorem rel_eq {d : WDist} (hd : d ≠ []) : d.rel = pts (d.maximumHeight hd) d := by
  unfold rel pts maximumHeight
  rw [List.getLast?_eq_some_getLast hd]

theorem rel_facts {d : WDist} (h : d.isValid = true) : ∃ hd : d ≠ [],
    0 < d.maximumHeight hd ∧ Ascending 0 d.rel ∧ (∀ p ∈ d.rel, p.1 ≤ 1) ∧
    (∃ p ∈ d.rel, 0 < p.2) := by
  obtain ⟨hd, ⟨p, hp, hp0⟩, hv⟩ := isValid_iff.mp h
  obtain ⟨hM, hle⟩ := last_ge hd hv
  refine ⟨hd, hM, ?_, ?_, ?_⟩
  · have := ascending_pts hM hv
    rw [zero_div] at this
    rw [rel_eq hd]; exact this
  · rw [rel_eq hd]
    intro q hq
    obtain ⟨x, hx, rfl⟩ := List.mem_map.mp hq
    rw [div_le_one hM]
    exact hle x hx
  · rw [rel_eq hd]
    exact ⟨_, List.mem_map.mpr ⟨p, hp, rfl⟩, hp0⟩

theorem rel_nonneg {d : WDist} (h : d.Proper) : ∀ p ∈ d.rel, 0 ≤ p.2 := by
  obtain ⟨hd, _⟩ := rel_facts h.valid
  rw [rel_eq hd]
  intro q hq
  obtain ⟨x, hx, rfl⟩ := List.mem_map.mp hq
  exact h.nonneg x hx

theorem total_pos {d : WDist} (h : d.Proper) : 0 < densityIntegral 0 d.rel 0 1 := by
  obtain ⟨_, _, hs, hle, hx⟩ := rel_facts h.valid
  exact densityIntegral_pos hs (rel_nonneg h) hx le_rfl hle

theorem normalizedWeight_eq {d : WDist} (hv : d.isValid = true)
    (ht : densityIntegral 0 d.rel 0 1 ≠ 0) {a b : ℚ} (ha : 0 ≤ a) (hab : a ≤ b) :
    d.normalizedWeight a b =
      .ok (densityIntegral 0 d.rel a b / densityIntegral 0 d.rel 0 1) := by
  obtain ⟨hd, hM, hs, hle, hx⟩ := rel_facts hv
  obtain ⟨_, _, hvl⟩ := isValid_iff.mp hv
  have hle' := (last_ge hd hvl).2
  unfold normalizedWeight
  simp only [hd, dif_neg, not_false_iff, hM.ne', if_false]
  have htot : totalLoop 0 d / d.maximumHeight hd = densityIntegral 0 d.rel 0 1 := by
    rw [totalLoop_eq hM le_rfl hvl hle', rel_eq hd, zero_div]
  rw [htot, if_neg ht]
  congr 2
  rw [rel_eq hd] at hs ⊢
  rw [weightLoop_eq (d.maximumHeight hd) a b (L := 0) hs (max_eq_left ha).symm hab]
  ring

/-! ### Weighted average of the node temperatures -/

theorem avgInner_spec (maxH next T lo : ℚ) (hlo : lo ≤ next) :
    ∀ (d : WDist) (L normH sum tot : ℚ), Ascending L (pts maxH d) →
      normH = max lo L → normH ≤ next → (∀ p ∈ d, 0 ≤ p.weight) →
      (∀ p ∈ pts maxH d, normH ≤ p.1) →
      (∃ p ∈ pts maxH d, next ≤ p.1) →
      ∃ d' L', avgInner maxH next T normH d sum tot =
          .ok (d', sum + densityIntegral L (pts maxH d) lo next * T,
            tot + densityIntegral L (pts maxH d) lo next) ∧
        Ascending L' (pts maxH d') ∧ L' ≤ next ∧ (∀ p ∈ d', 0 ≤ p.weight) ∧
        (∀ p ∈ pts maxH d', next ≤ p.1) ∧
        (∀ x, next ≤ x → (∃ p ∈ pts maxH d, x ≤ p.1) → ∃ p ∈ pts maxH d', x ≤ p.1) ∧
        (∀ a c, next ≤ a → densityIntegral L (pts maxH d) a c = densityIntegral L' (pts maxH d') a c) := by
  intro d
  induction d with
  | nil => rintro L normH sum tot - - - - - ⟨p, hp, -⟩; cases hp
  | cons p ps ih =>
    intro L normH sum tot hs hn hnn hw hge hex
    have hsL : L < p.height / maxH := hs.1
    have hst : Ascending (p.height / maxH) (pts maxH ps) := hs.2
    have hw0 : 0 ≤ p.weight := hw p (List.mem_cons_self ..)
    have hpn : normH ≤ p.height / maxH := hge (p.height / maxH, p.weight) (List.mem_cons_self ..)
    have hlon : lo ≤ normH := hn ▸ le_max_left lo L
    have hdI : ∀ a c, densityIntegral L (pts maxH (p :: ps)) a c =
        p.weight * overlap L (p.height / maxH) a c +
          densityIntegral (p.height / maxH) (pts maxH ps) a c := fun _ _ => rfl
    rw [avgInner]
    by_cases c : p.height / maxH < next
    · simp only [c, if_true]
      have hol : overlap L (p.height / maxH) lo next = p.height / maxH - normH := by
        unfold overlap
        rw [min_eq_left c.le, max_comm L lo, ← hn, max_eq_right (by linarith)]
      have hex' : ∃ q ∈ pts maxH ps, next ≤ q.1 := by
        obtain ⟨q, hq, hq1⟩ := hex
        rcases List.mem_cons.mp hq with rfl | hq
        · exact absurd c (not_lt.mpr hq1)
        · exact ⟨q, hq, hq1⟩
      have hge' : ∀ q ∈ pts maxH ps, p.height / maxH ≤ q.1 := by
        have : ∀ (ds : List (ℚ × ℚ)) (L : ℚ), Ascending L ds → ∀ q ∈ ds, L ≤ q.1 := by
          intro ds
          induction ds with
          | nil => intro L _ q hq; cases hq
          | cons x xs ihx =>
            intro L hL q hq
            rcases List.mem_cons.mp hq with rfl | hq
            · exact hL.1.le
            · exact hL.1.le.trans (ihx _ hL.2 q hq)
        exact this _ _ hst
      have hmax : p.height / maxH = max lo (p.height / maxH) :=
        (max_eq_right (hlon.trans hpn)).symm
      have key : ∀ sum' tot', ∃ d' L', avgInner maxH next T (p.height / maxH) ps sum' tot' =
          .ok (d', sum' + densityIntegral (p.height / maxH) (pts maxH ps) lo next * T,
            tot' + densityIntegral (p.height / maxH) (pts maxH ps) lo next) ∧
        Ascending L' (pts maxH d') ∧ L' ≤ next ∧ (∀ p ∈ d', 0 ≤ p.weight) ∧
        (∀ p ∈ pts maxH d', next ≤ p.1) ∧
        (∀ x, next ≤ x → (∃ q ∈ pts maxH (p :: ps), x ≤ q.1) → ∃ q ∈ pts maxH d', x ≤ q.1) ∧
        (∀ a c, next ≤ a → densityIntegral L (pts maxH (p :: ps)) a c =
          densityIntegral L' (pts maxH d') a c) := by
        intro sum' tot'
        obtain ⟨d', L', h1, h2, h3, h4, h5, h6, h7⟩ := ih (p.height / maxH) (p.height / maxH)
          sum' tot' hst hmax c.le (fun q hq => hw q (List.mem_cons_of_mem _ hq)) hge' hex'
        refine ⟨d', L', h1, h2, h3, h4, h5, ?_, ?_⟩
        · rintro x hx ⟨q, hq, hq1⟩
          rcases List.mem_cons.mp hq with rfl | hq
          · exact absurd c (not_lt.mpr (hx.trans hq1))
          · exact h6 x hx ⟨q, hq, hq1⟩
        intro a c' hac
        rw [hdI, overlap_disjoint_left (c.le.trans hac), h7 a c' hac]
        ring
      by_cases hwt : p.weight * (p.height / maxH - normH) > 0
      · simp only [hwt, if_true]
        obtain ⟨d', L', h1, h2⟩ := key (sum + p.weight * (p.height / maxH - normH) * T)
          (tot + p.weight * (p.height / maxH - normH))
        refine ⟨d', L', ?_, h2⟩
        rw [h1, hdI, hol]
        congr 2
        congr 1 <;> ring
      · simp only [hwt, if_false]
        have hz : p.weight * (p.height / maxH - normH) = 0 :=
          le_antisymm (not_lt.mp hwt) (mul_nonneg hw0 (by linarith))
        obtain ⟨d', L', h1, h2⟩ := key sum tot
        refine ⟨d', L', ?_, h2⟩
        rw [h1, hdI, hol, hz]
        congr 2
        congr 1 <;> ring
    · simp only [c, if_false]
      have c' := not_lt.mp c
      have hol : overlap L (p.height / maxH) lo next = next - normH := by
        unfold overlap
        rw [min_eq_right c', max_comm L lo, ← hn, max_eq_right (by linarith)]
      have hres : densityIntegral L (pts maxH (p :: ps)) lo next = p.weight * (next - normH) := by
        rw [hdI, hol, densityIntegral_right hst c', add_zero]
      have hge' : ∀ q ∈ pts maxH (p :: ps), next ≤ q.1 := by
        have : ∀ (ds : List (ℚ × ℚ)) (L : ℚ), Ascending L ds → ∀ q ∈ ds, L ≤ q.1 := by
          intro ds
          induction ds with
          | nil => intro L _ q hq; cases hq
          | cons x xs ihx =>
            intro L hL q hq
            rcases List.mem_cons.mp hq with rfl | hq
            · exact hL.1.le
            · exact hL.1.le.trans (ihx _ hL.2 q hq)
        intro q hq
        rcases List.mem_cons.mp hq with rfl | hq
        · exact c'
        · exact c'.trans (this _ _ hst q hq)
      have hLn : L ≤ next := (hn ▸ le_max_right lo L : L ≤ normH).trans hnn
      by_cases hwt : p.weight * (next - normH) > 0
      · simp only [hwt, if_true]
        refine ⟨p :: ps, L, ?_, hs, hLn, hw, hge', fun _ _ h => h, fun _ _ _ => rfl⟩
        rw [hres]
      · simp only [hwt, if_false]
        have hz : p.weight * (next - normH) = 0 :=
          le_antisymm (not_lt.mp hwt) (mul_nonneg hw0 (by linarith))
        refine ⟨p :: ps, L, ?_, hs, hLn, hw, hge', fun _ _ h => h, fun _ _ _ => rfl⟩
        rw [hres, hz]
        congr 2
        congr 1 <;> ring

theorem avgOuter_spec {N : ℕ} (hN0 : 0 < N) (maxH : ℚ) (T : Fin N → ℚ) :
    ∀ (room i : ℕ) (h : i + room = N) (d : WDist) (L sum tot : ℚ),
      Ascending L (pts maxH d) → L ≤ (i : ℚ) / N → (∀ p ∈ d, 0 ≤ p.weight) →
      (∀ p ∈ pts maxH d, (i : ℚ) / N ≤ p.1) → (∃ p ∈ pts maxH d, 1 ≤ p.1) →
      avgOuter maxH T i room h d sum tot = .ok
        (sum + ∑ k ∈ Finset.univ.filter (fun k : Fin N => i ≤ k.val),
            densityIntegral L (pts maxH d) ((k : ℚ) / N) (((k : ℚ) + 1) / N) * T k,
         tot + densityIntegral L (pts maxH d) ((i : ℚ) / N) 1) := by
  have hN : (0 : ℚ) < N := by exact_mod_cast hN0
  intro room
  induction room with
  | zero =>
    intro i h d L sum tot hs hL hw hge hex
    rw [avgOuter]
    have he : Finset.univ.filter (fun k : Fin N => i ≤ k.val) = ∅ := by
      apply Finset.filter_eq_empty_iff.mpr
      intro k _
      have := k.isLt
      omega
    rw [he, Finset.sum_empty]
    have : (i : ℚ) / N = 1 := by
      have : i = N := by omega
      subst this
      exact div_self hN.ne'
    rw [this, densityIntegral_self]
    simp
  | succ room ih =>
    intro i h d L sum tot hs hL hw hge hex
    have hi : i < N := by omega
    have hx : (((i + 1 : ℕ) : ℚ) / N) = ((i : ℚ) + 1) / N := by push_cast; rfl
    have hn1 : ((i : ℚ) + 1) / N ≤ 1 := by
      rw [div_le_one hN]; exact_mod_cast hi
    have hcl := cell_le N i
    rw [avgOuter, hx]
    obtain ⟨d', L', h1, h2, h3, h4, h5, h6, h7⟩ := avgInner_spec maxH (((i : ℚ) + 1) / N)
      (T ⟨i, hi⟩) ((i : ℚ) / N) hcl d L ((i : ℚ) / N) sum tot hs (max_eq_left hL).symm hcl hw hge
      (by obtain ⟨p, hp, hp1⟩ := hex; exact ⟨p, hp, hn1.trans hp1⟩)
    simp only [h1]
    rw [ih (i + 1) (by omega) d' L' _ _ h2 (by rw [hx]; exact h3) h4 (by rw [hx]; exact h5)
      (h6 1 hn1 hex)]
    rw [hx]
    have hsplit : Finset.univ.filter (fun k : Fin N => i ≤ k.val) =
        insert ⟨i, hi⟩ (Finset.univ.filter (fun k : Fin N => i + 1 ≤ k.val)) := by
      ext k
      simp only [Finset.mem_filter, Finset.mem_univ, true_and, Finset.mem_insert]
      constructor
      · intro hk
        by_cases hki : k.val = i
        · exact Or.inl (Fin.ext hki)
        · exact Or.inr (by omega)
      · rintro (rfl | hk)
        · exact le_rfl
        · omega
    rw [hsplit, Finset.sum_insert (by simp)]
    have hsum : ∑ k ∈ Finset.univ.filter (fun k : Fin N => i + 1 ≤ k.val),
        densityIntegral L' (pts maxH d') ((k : ℚ) / N) (((k : ℚ) + 1) / N) * T k =
      ∑ k ∈ Finset.univ.filter (fun k : Fin N => i + 1 ≤ k.val),
        densityIntegral L (pts maxH d) ((k : ℚ) / N) (((k : ℚ) + 1) / N) * T k := by
      apply Finset.sum_congr rfl
      intro k hk
      rw [h7]
      apply div_le_div_of_nonneg_right _ hN.le
      have := (Finset.mem_filter.mp hk).2
      exact_mod_cast this
    rw [hsum, ← h7 _ 1 le_rfl, ← densityIntegral_add hs hcl hn1]
    congr 2
    · ring
    · ring

theorem averageT_eq {N : ℕ} (hN0 : 0 < N) {d : WDist} (h : d.Proper) (T : Fin N → ℚ) :
    d.averageT T = .ok ((∑ k : Fin N,
      densityIntegral 0 d.rel ((k : ℚ) / N) (((k : ℚ) + 1) / N) * T k) /
        densityIntegral 0 d.rel 0 1) := by
  obtain ⟨hd, hM, hs, hle, hx⟩ := rel_facts h.valid
  have htot := total_pos h
  unfold averageT
  simp only [hd, dif_neg, not_false_iff, hM.ne', if_false]
  rw [rel_eq hd] at hs htot ⊢
  have hge : ∀ p ∈ pts (d.maximumHeight hd) d, 0 ≤ p.1 := by
    have : ∀ (ds : List (ℚ × ℚ)) (L : ℚ), Ascending L ds → ∀ q ∈ ds, L ≤ q.1 := by
      intro ds
      induction ds with
      | nil => intro L _ q hq; cases hq
      | cons x xs ihx =>
        intro L hL q hq
        rcases List.mem_cons.mp hq with rfl | hq
        · exact hL.1.le
        · exact hL.1.le.trans (ihx _ hL.2 q hq)
    exact this _ _ hs
  rw [avgOuter_spec hN0 (d.maximumHeight hd) T N 0 (by omega) d 0 0 0 hs (by simp) h.nonneg
    (by simpa using hge)]
  · simp only [Nat.cast_zero, zero_div, zero_add, htot.ne', if_false, Nat.zero_le,
      Finset.filter_true]
  · refine ⟨_, List.mem_map.mpr ⟨d.getLast hd, List.getLast_mem hd, rfl⟩, ?_⟩
    show 1 ≤ (d.getLast hd).height / d.maximumHeight hd
    rw [show (d.getLast hd).height = d.maximumHeight hd from rfl, div_self hM.ne']

theorem sum_node_shares {N : ℕ} (hN0 : 0 < N) {d : WDist} (h : d.isValid = true) :
    ∑ k : Fin N, densityIntegral 0 d.rel ((k : ℚ) / N) (((k : ℚ) + 1) / N) =
      densityIntegral 0 d.rel 0 1 := by
  obtain ⟨hd, hM, hs, hle, hx⟩ := rel_facts h
  have hN : (0 : ℚ) < N := by exact_mod_cast hN0
  have key : ∀ k : ℕ, ∑ j ∈ Finset.range k,
      densityIntegral 0 d.rel ((j : ℚ) / N) (((j : ℚ) + 1) / N) =
      densityIntegral 0 d.rel 0 ((k : ℚ) / N) := by
    intro k
    induction k with
    | zero => simp [densityIntegral_self]
    | succ k ih =>
      rw [Finset.sum_range_succ, ih, densityIntegral_add hs (by positivity) (cell_le N k)]
      push_cast
      rfl
  rw [Fin.sum_univ_eq_sum_range
    (fun j => densityIntegral 0 d.rel ((j : ℚ) / N) (((j : ℚ) + 1) / N)) N, key N,
    div_self hN.ne']

theorem nodeShare_eq {d : WDist} (h : d.Proper) (N k : ℕ) : d.nodeShare N k = .ok (d.share N k) := by
  unfold nodeShare share
  have hx : (((k + 1 : ℕ) : ℚ) / N) = ((k : ℚ) + 1) / N := by push_cast; rfl
  rw [hx, normalizedWeight_eq h.valid (total_pos h).ne' (by positivity) (cell_le N k)]

theorem sum_share {d : WDist} (h : d.Proper) {N : ℕ} (hN : 0 < N) :
    ∑ k : Fin N, d.share N k = 1 := by
  unfold share
  rw [← Finset.sum_div, sum_node_shares hN h.valid, div_self (total_pos h).ne']

theorem share_nonneg {d : WDist} (h : d.Proper) (N k : ℕ) : 0 ≤ d.share N k :=
  div_nonneg (densityIntegral_nonneg 0 (rel_nonneg h) _ _) (total_pos h).le

theorem calcHeatDist_eq {d : WDist} (h : d.Proper) {N : ℕ} (hN : 0 < N) :
    d.calcHeatDist N = .ok (fun k => d.share N k) := by
  unfold calcHeatDist
  have h1 : ∀ i : Fin N, (d.nodeShare N i).isOk = true := fun i => by
    rw [nodeShare_eq h]; rfl
  rw [if_pos h1]
  simp only [nodeShare_eq h, sum_share h hN, one_ne_zero, if_false, div_one]

theorem lowestLoop_spec {d : WDist} (h : d.Proper) {N : ℕ} (hN : 0 < N) :
    ∀ (room j : ℕ), j + room = N → densityIntegral 0 d.rel 0 ((j : ℚ) / N) = 0 →
      lowestLoop d N j room < N ∧
      0 < densityIntegral 0 d.rel 0 (((lowestLoop d N j room : ℚ) + 1) / N) ∧
      densityIntegral 0 d.rel 0 ((lowestLoop d N j room : ℚ) / N) = 0 := by
  have hNQ : (0 : ℚ) < N := by exact_mod_cast hN
  have htot := total_pos h
  intro room
  induction room with
  | zero =>
    intro j hj h0
    exfalso
    have : j = N := by omega
    subst this
    rw [div_self hNQ.ne'] at h0
    linarith
  | succ room ih =>
    intro j hj h0
    rw [lowestLoop]
    have hjN : j / N = 0 := Nat.div_eq_of_lt (by omega)
    have hnn := densityIntegral_nonneg 0 (rel_nonneg h) 0 (((j : ℚ) + 1) / N)
    rw [hjN, normalizedWeight_eq h.valid htot.ne' (by simp) (by simp; positivity)]
    simp only [Nat.cast_zero]
    by_cases hc : densityIntegral 0 d.rel 0 (((j : ℚ) + 1) / N) / densityIntegral 0 d.rel 0 1 > 0
    · simp only [hc, if_true]
      exact ⟨by omega, (div_pos_iff_of_pos_right htot).mp hc, h0⟩
    · simp only [hc, if_false]
      apply ih (j + 1) (by omega)
      push_cast
      by_contra hne
      exact hc (div_pos (lt_of_le_of_ne hnn (Ne.symm hne)) htot)

/-- `findLowestNode` finds the lowest node with a positive share. -/
theorem findLowestNode_spec {d : WDist} (h : d.Proper) {N : ℕ} (hN : 0 < N) :
    d.findLowestNode N < N ∧ 0 < d.share N (d.findLowestNode N) ∧
    ∀ k, k < d.findLowestNode N → d.share N k = 0 := by
  have hNQ : (0 : ℚ) < N := by exact_mod_cast hN
  have htot := total_pos h
  obtain ⟨hd, hM, hs, hle, hx⟩ := rel_facts h.valid
  obtain ⟨h1, h2, h3⟩ := lowestLoop_spec h hN N 0 (by omega) (by simp [densityIntegral_self])
  change d.findLowestNode N < N at h1
  change 0 < densityIntegral 0 d.rel 0 (((d.findLowestNode N : ℚ) + 1) / N) at h2
  change densityIntegral 0 d.rel 0 ((d.findLowestNode N : ℚ) / N) = 0 at h3
  refine ⟨h1, ?_, ?_⟩
  · rw [← densityIntegral_add hs (by positivity) (cell_le N (d.findLowestNode N)), h3, zero_add] at h2
    exact div_pos h2 htot
  · intro k hk
    have e1 := densityIntegral_add hs (a := 0) (b := (k : ℚ) / N) (c := ((k : ℚ) + 1) / N)
      (by positivity) (cell_le N k)
    have hle' : ((k : ℚ) + 1) / N ≤ (d.findLowestNode N : ℚ) / N :=
      div_le_div_of_nonneg_right (by exact_mod_cast hk) hNQ.le
    have e2 := densityIntegral_add hs (a := 0) (b := ((k : ℚ) + 1) / N)
      (c := (d.findLowestNode N : ℚ) / N) (by positivity) hle'
    have p1 := densityIntegral_nonneg 0 (rel_nonneg h) 0 ((k : ℚ) / N)
    have p2 := densityIntegral_nonneg 0 (rel_nonneg h) ((k : ℚ) / N) (((k : ℚ) + 1) / N)
    have p3 := densityIntegral_nonneg 0 (rel_nonneg h) (((k : ℚ) + 1) / N)
      ((d.findLowestNode N : ℚ) / N)
    have : densityIntegral 0 d.rel ((k : ℚ) / N) (((k : ℚ) + 1) / N) = 0 := by linarith
    unfold share
    rw [this, zero_div]

end WDist
end HPWH
