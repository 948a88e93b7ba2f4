import Verif.Model.Logics
import Verif.Props.Profile
import Verif.Props.Ports
import Verif.Spec.Logic
import Verif.Lemmas.Logic

/-! # Heating logics over a part of the tank, and sizing fractions (C55, C62) -/

namespace HPWH

open Spec
open _root_.HPWH.Units

variable {n k : ℕ}

/-! ## C62 -/

theorem overlap_symm (a b c d : ℚ) : overlap a b c d = overlap c d a b := by
  unfold overlap; rw [min_comm, max_comm a c]

theorem overlap_zero_left {a b c : ℚ} (h : c ≤ a) : overlap a b 0 c = 0 := by
  unfold overlap
  refine max_eq_left ?_
  have h1 : min b c ≤ c := min_le_right _ _
  have h2 : a ≤ max a 0 := le_max_left _ _
  linarith

theorem rangeDist_proper {a b : ℚ} (h0 : 0 ≤ a) (hab : a < b) (hb : b ≤ 1) :
    (rangeDist a b).Proper := by
  have hb0 : 0 < b := h0.trans_lt hab
  constructor
  · rcases h0.eq_or_lt with rfl | h0 <;> rcases hb.eq_or_lt with rfl | hb <;>
      simp [rangeDist, WDist.isValid, WDist.isValidLoop, *]
  · rcases h0.eq_or_lt with rfl | h0 <;> rcases hb.eq_or_lt with rfl | hb <;>
      simp [rangeDist, *]

theorem rangeDist_density {a b : ℚ} (h0 : 0 ≤ a) (hb : b ≤ 1) (x y : ℚ) :
    densityIntegral 0 (rangeDist a b).rel x y = overlap a b x y := by
  rcases h0.eq_or_lt with rfl | h0 <;> rcases hb.eq_or_lt with rfl | hb <;>
    simp [rangeDist, WDist.rel, densityIntegral, *]

/-- **C62.** The weighted temperature over a range of heights is the average temperature of exactly that
part of the tank. -/
theorem C62_range_average (a b : ℚ) (h0 : 0 ≤ a) (hab : a < b) (hb : b ≤ 1) (T : Fin (n + 1) → ℚ) :
    (rangeDist a b).averageT T = .ok (profileAverage T a b) := by
  rw [WDist.averageT_eq (Nat.succ_pos n) (rangeDist_proper h0 hab hb)]
  simp only [rangeDist_density h0 hb]
  congr 2
  · unfold profileIntegral
    refine Finset.sum_congr rfl fun i _ => ?_
    rw [overlap_symm, mul_comm]
  · unfold overlap
    rw [min_eq_left hb, max_eq_left h0, max_eq_right (by linarith)]

example : ∃ x, (rangeDist (1 / 3) (1 / 2)).averageT ![(10 : ℚ), 20, 30, 60] = .ok x ∧ x = 20 := by
  decide +kernel

/-- The logic compares the average temperature between the relative heights `a` and `b` with `limit`
(`below`: it is satisfied when that average is lower, otherwise when it is higher). -/
def Spec.ComparesRange (l : Logic) (a b : ℚ) (below : Bool) (limit : ∀ {n : ℕ}, Plant n → ℚ) : Prop :=
  ∀ {n : ℕ} (p : Plant n), l.holds p = .ok (if below
    then decide (profileAverage p.tank.nodeTs a b < limit p)
    else decide (profileAverage p.tank.nodeTs a b > limit p))

theorem comparesRange (s : String) (a b x : ℚ) (h0 : 0 ≤ a) (hab : a < b) (hb : b ≤ 1)
    (absolute : Bool) (cmp : Cmp) (h st : Bool) :
    ComparesRange (tempLogic s (.weighted (rangeDist a b)) x absolute cmp h st) a b
      (decide (cmp = .less)) (fun p => if absolute then x else p.setpoint - x) := by
  intro n p
  have := C62_range_average a b h0 hab hb p.tank.nodeTs
  cases absolute <;> cases cmp <;>
    simp [Logic.holds, Logic.tankValue, tempLogic, Plant.averageDist, this, Logic.comparisonValue,
      Cmp.test]

/-- **C62.** What each of the heating logics the library offers for a part of the tank looks at: turn-on
logics are satisfied when that part is on average colder than a number of degrees below the setpoint (or
than an absolute temperature), maximum-temperature logics when it is hotter than an absolute
temperature. -/
theorem C62_library_logics (x : ℚ) :
    ComparesRange (Logics.wholeTank x .C false) 0 1 true (fun p => p.setpoint - x) ∧
    ComparesRange (Logics.wholeTank x .F false) 0 1 true (fun p => p.setpoint - x * 5 / 9) ∧
    ComparesRange (Logics.wholeTank x .C true) 0 1 true (fun _ => x) ∧
    ComparesRange (Logics.wholeTank x .F true) 0 1 true (fun _ => (x - 32) * 5 / 9) ∧
    ComparesRange (Logics.topThird x) (2 / 3) 1 true (fun p => p.setpoint - x) ∧
    ComparesRange (Logics.topThirdAbsolute x) (2 / 3) 1 true (fun _ => x) ∧
    ComparesRange (Logics.secondThird x .C false) (1 / 3) (2 / 3) true (fun p => p.setpoint - x) ∧
    ComparesRange (Logics.secondThird x .F false) (1 / 3) (2 / 3) true
      (fun p => p.setpoint - x * 5 / 9) ∧
    ComparesRange (Logics.secondThird x .C true) (1 / 3) (2 / 3) true (fun _ => x) ∧
    ComparesRange (Logics.secondThird x .F true) (1 / 3) (2 / 3) true (fun _ => (x - 32) * 5 / 9) ∧
    ComparesRange (Logics.bottomThird x) 0 (1 / 3) true (fun p => p.setpoint - x) ∧
    ComparesRange (Logics.bottomSixth x) 0 (1 / 6) true (fun p => p.setpoint - x) ∧
    ComparesRange (Logics.bottomSixthAbsolute x) 0 (1 / 6) true (fun _ => x) ∧
    ComparesRange (Logics.secondSixth x) (1 / 6) (2 / 6) true (fun p => p.setpoint - x) ∧
    ComparesRange (Logics.thirdSixth x) (2 / 6) (3 / 6) true (fun p => p.setpoint - x) ∧
    ComparesRange (Logics.fourthSixth x) (3 / 6) (4 / 6) true (fun p => p.setpoint - x) ∧
    ComparesRange (Logics.fifthSixth x) (4 / 6) (5 / 6) true (fun p => p.setpoint - x) ∧
    ComparesRange (Logics.topSixth x) (5 / 6) 1 true (fun p => p.setpoint - x) ∧
    ComparesRange (Logics.bottomHalf x) 0 (1 / 2) true (fun p => p.setpoint - x) ∧
    ComparesRange (Logics.bottomTwelfth x) 0 (1 / 12) true (fun p => p.setpoint - x) ∧
    ComparesRange (Logics.largeDraw x) 0 (1 / 4) true (fun _ => x) ∧
    ComparesRange (Logics.largerDraw x) 0 (1 / 2) true (fun _ => x) ∧
    ComparesRange (Logics.bottomTwelfthMaxTemp x) 0 (1 / 12) false (fun _ => x) ∧
    ComparesRange (Logics.bottomSixthMaxTemp x) 0 (1 / 6) false (fun _ => x) ∧
    ComparesRange (Logics.secondSixthMaxTemp x) (1 / 6) (2 / 6) false (fun _ => x) ∧
    ComparesRange (Logics.fifthSixthMaxTemp x) (4 / 6) (5 / 6) false (fun _ => x) ∧
    ComparesRange (Logics.topSixthMaxTemp x) (5 / 6) 1 false (fun _ => x) ∧
    ComparesRange (Logics.topThirdMaxTemp x) (2 / 3) 1 false (fun _ => x) := by
  have e1 : dF_TO_dC x = x * 5 / 9 := by unfold dF_TO_dC FperC; ring
  have e2 : F_TO_C x = (x - 32) * 5 / 9 := by unfold F_TO_C FperC offsetF; ring
  have e3 : convertTempToC x .F false = x * 5 / 9 := by simp [convertTempToC, e1]
  have e4 : convertTempToC x .F true = (x - 32) * 5 / 9 := by simp [convertTempToC, e2]
  unfold Logics.wholeTank Logics.secondThird
  rw [e3, e4]
  refine ⟨?_, ?_, ?_, ?_, ?_, ?_, ?_, ?_, ?_, ?_, ?_, ?_, ?_, ?_, ?_, ?_, ?_, ?_, ?_, ?_, ?_, ?_, ?_,
    ?_, ?_, ?_, ?_, ?_⟩ <;>
  · refine comparesRange _ _ _ _ ?_ ?_ ?_ _ _ _ _ <;> norm_num

/-- **C62.** The logics that look at a single node. -/
theorem C62_node_logics (x : ℚ) (b : Bool) (p : Plant n) :
    (Logics.standby x).holds p = .ok (decide (p.tank.nodeTs (Fin.last n) < p.setpoint - x)) ∧
    (Logics.topNode x).holds p = .ok (decide (p.tank.nodeTs (Fin.last n) < p.setpoint - x)) ∧
    (Logics.topNodeMaxTemp x).holds p = .ok (decide (p.tank.nodeTs (Fin.last n) > x)) ∧
    (Logics.bottomNodeMaxTemp x b).holds p = .ok (decide (p.tank.nodeTs 0 > x)) ∧
    ((Logics.standby x).checkStandby = true) ∧ ((Logics.topNode x).checkStandby = false) ∧
    ((Logics.bottomNodeMaxTemp x b).isEnteringWaterHighTempShutoff = b) :=
  ⟨rfl, rfl, rfl, rfl, rfl, rfl, rfl⟩

/-! ### Numbered twelfths -/

/-- Integral over `[a, b]` of the density that is `weight` on each listed twelfth of the tank. -/
def Spec.twelfths (ns : List NodeWeight) (a b : ℚ) : ℚ :=
  (ns.map fun x => x.weight * overlap (((x.nodeNum : ℚ) - 1) / 12) ((x.nodeNum : ℚ) / 12) a b).sum

/-- Average temperature of the listed twelfths of the tank, weighted. -/
def Spec.twelfthsAverage (ns : List NodeWeight) (T : Fin (n + 1) → ℚ) : ℚ :=
  (ns.map fun x =>
    x.weight * profileAverage T (((x.nodeNum : ℚ) - 1) / 12) ((x.nodeNum : ℚ) / 12)).sum /
    (ns.map (·.weight)).sum

/-- A list of twelfths from the bottom up, in which equal weights only follow each other on adjacent
twelfths. -/
structure Spec.Twelfths (ns : List NodeWeight) : Prop where
  range : ∀ x ∈ ns, 1 ≤ x.nodeNum ∧ x.nodeNum ≤ 12
  ascending : ns.IsChain fun x y => x.nodeNum < y.nodeNum
  adjacent : ns.IsChain fun x y => x.weight = y.weight → y.nodeNum = x.nodeNum + 1
  nonneg : ∀ x ∈ ns, 0 ≤ x.weight
  positive : ∃ x ∈ ns, 0 < x.weight

/-- Heights of twelfths relative to the tank. -/
def twelfthPts (d : WDist) : List (ℚ × ℚ) := d.map fun p => (p.height / 12, p.weight)

theorem overlap_adjacent {r s t a b : ℚ} (h1 : r ≤ s) (h2 : s ≤ t) (hab : a ≤ b) :
    overlap r t a b = overlap r s a b + overlap s t a b := by
  rw [overlap_symm r t, overlap_symm r s, overlap_symm s t, overlap_add a b hab h1 h2]

theorem nodeLoop_spec : ∀ (rest : List NodeWeight) (prev : ℚ) (x : NodeWeight) (acc : WDist) (r : ℚ),
    r < x.nodeNum → (∀ y ∈ x :: rest, 1 ≤ y.nodeNum ∧ y.nodeNum ≤ 12) →
    ((x :: rest).IsChain fun x y => x.nodeNum < y.nodeNum) →
    ((x :: rest).IsChain fun x y => x.weight = y.weight → y.nodeNum = x.nodeNum + 1) →
    (∀ y ∈ x :: rest, 0 ≤ y.weight) →
    ∃ ext : WDist, nodeLoop prev (some x) rest acc = .weighted (acc ++ ext) ∧
      WDist.isValidLoop r ext = true ∧ (∃ e, ext.getLast? = some e ∧ e.height = 12) ∧
      (∀ p ∈ ext, 0 ≤ p.weight) ∧
      ((∃ y ∈ x :: rest, 0 < y.weight) → ∃ p ∈ ext, 0 < p.weight) ∧
      ∀ a b, a ≤ b → densityIntegral (r / 12) (twelfthPts ext) a b =
        x.weight * overlap (r / 12) ((x.nodeNum : ℚ) / 12) a b + twelfths rest a b
  | [], prev, x, acc, r, hr, hrg, _, _, hw => by
    have hx := hrg x (List.mem_cons_self ..)
    have hxw := hw x (List.mem_cons_self ..)
    by_cases h12 : (x.nodeNum : ℚ) < 12
    · refine ⟨[⟨x.nodeNum, x.weight⟩, ⟨12, 0⟩], ?_, ?_, ?_, ?_, ?_, ?_⟩
      · simp [nodeLoop, h12]
      · simp [WDist.isValidLoop, hr, h12]
      · exact ⟨_, rfl, rfl⟩
      · simp [hxw]
      · rintro ⟨y, hy, h⟩
        simp only [List.mem_cons, List.not_mem_nil, or_false] at hy
        subst hy
        exact ⟨_, List.mem_cons_self .., h⟩
      · intro a b _
        simp [twelfthPts, densityIntegral, twelfths]
    · have : x.nodeNum = 12 := by
        have : ¬ x.nodeNum < 12 := fun h => h12 (by exact_mod_cast h)
        omega
      refine ⟨[⟨x.nodeNum, x.weight⟩], ?_, ?_, ?_, ?_, ?_, ?_⟩
      · simp [nodeLoop, h12]
      · simp [WDist.isValidLoop, hr]
      · exact ⟨_, rfl, by simp [this]⟩
      · simp [hxw]
      · rintro ⟨y, hy, h⟩
        simp only [List.mem_cons, List.not_mem_nil, or_false] at hy
        subst hy
        exact ⟨_, List.mem_cons_self .., h⟩
      · intro a b _
        simp [twelfthPts, densityIntegral, twelfths]
  | y :: ys, prev, x, acc, r, hr, hrg, hasc, hadj, hw => by
    have hx := hrg x (List.mem_cons_self ..)
    have hy := hrg y (by simp)
    have hxw := hw x (List.mem_cons_self ..)
    have hlt : x.nodeNum < y.nodeNum := (List.isChain_cons_cons.mp hasc).1
    have had := (List.isChain_cons_cons.mp hadj).1
    have hrg' : ∀ z ∈ y :: ys, 1 ≤ z.nodeNum ∧ z.nodeNum ≤ 12 :=
      fun z hz => hrg z (List.mem_cons_of_mem _ hz)
    have hw' : ∀ z ∈ y :: ys, 0 ≤ z.weight := fun z hz => hw z (List.mem_cons_of_mem _ hz)
    have hltq : (x.nodeNum : ℚ) < y.nodeNum := by exact_mod_cast hlt
    have hlt1 : (x.nodeNum : ℚ) ≤ y.nodeNum - 1 := by
      have : x.nodeNum ≤ y.nodeNum - 1 := by omega
      exact_mod_cast this
    by_cases hww : y.weight = x.weight
    · obtain ⟨ext, h1, h2, h3, h4, h5, h6⟩ := nodeLoop_spec ys prev y acc r (hr.trans hltq) hrg'
        (List.isChain_cons_cons.mp hasc).2 (List.isChain_cons_cons.mp hadj).2 hw'
      refine ⟨ext, ?_, h2, h3, h4, ?_, ?_⟩
      · rw [nodeLoop, if_pos hww, h1]
      · rintro ⟨z, hz, h⟩
        rcases List.mem_cons.mp hz with rfl | hz
        · exact h5 ⟨y, List.mem_cons_self .., hww ▸ h⟩
        · exact h5 ⟨z, hz, h⟩
      · intro a b hab
        have e : (y.nodeNum : ℚ) - 1 = x.nodeNum := by
          rw [had hww.symm]; push_cast; ring
        rw [h6 a b hab, overlap_adjacent (s := (x.nodeNum : ℚ) / 12)
          (by linarith) (by linarith) hab]
        simp only [twelfths, List.map_cons, List.sum_cons, e, hww]
        ring
    · have hy0 : y.nodeNum ≠ 0 := by omega
      have hy13 : y.nodeNum ≠ 13 := by omega
      have e : (x.nodeNum : ℚ) - 1 + 1 = x.nodeNum := by ring
      by_cases hgap : (y.nodeNum : ℚ) - 1 > x.nodeNum
      · obtain ⟨ext, h1, h2, ⟨l, h3, h3'⟩, h4, h5, h6⟩ := nodeLoop_spec ys (x.nodeNum : ℚ) y
          (acc ++ [⟨x.nodeNum, x.weight⟩] ++ [⟨(y.nodeNum : ℚ) - 1, 0⟩]) ((y.nodeNum : ℚ) - 1)
          (by linarith) hrg'
          (List.isChain_cons_cons.mp hasc).2 (List.isChain_cons_cons.mp hadj).2 hw'
        refine ⟨[⟨x.nodeNum, x.weight⟩, ⟨(y.nodeNum : ℚ) - 1, 0⟩] ++ ext, ?_, ?_, ?_, ?_, ?_, ?_⟩
        · rw [nodeLoop, if_neg hww, if_neg hy0, if_neg hy13, e, if_pos hgap, h1]
          simp
        · simp [WDist.isValidLoop, hr, h2]; linarith
        · exact ⟨l, by simp [List.getLast?_cons, h3], h3'⟩
        · simp only [List.cons_append, List.nil_append, List.mem_cons]
          rintro p (rfl | rfl | hp)
          · exact hxw
          · exact le_rfl
          · exact h4 p hp
        · rintro ⟨z, hz, h⟩
          rcases List.mem_cons.mp hz with rfl | hz
          · exact ⟨_, List.mem_cons_self .., h⟩
          · obtain ⟨p, hp, hp'⟩ := h5 ⟨z, hz, h⟩
            exact ⟨p, by simp [hp], hp'⟩
        · intro a b hab
          have := h6 a b hab
          simp only [twelfthPts] at this
          simp [twelfthPts, densityIntegral, twelfths, this]
      · have heq : (y.nodeNum : ℚ) - 1 = x.nodeNum := le_antisymm (not_lt.mp hgap) hlt1
        obtain ⟨ext, h1, h2, ⟨l, h3, h3'⟩, h4, h5, h6⟩ := nodeLoop_spec ys (x.nodeNum : ℚ) y
          (acc ++ [⟨x.nodeNum, x.weight⟩]) ((y.nodeNum : ℚ) - 1)
          (by linarith) hrg'
          (List.isChain_cons_cons.mp hasc).2 (List.isChain_cons_cons.mp hadj).2 hw'
        refine ⟨[⟨x.nodeNum, x.weight⟩] ++ ext, ?_, ?_, ?_, ?_, ?_, ?_⟩
        · rw [nodeLoop, if_neg hww, if_neg hy0, if_neg hy13, e, if_neg hgap, h1]
          simp
        · rw [heq] at h2
          simp [WDist.isValidLoop, hr, h2]
        · exact ⟨l, by simp [List.getLast?_cons, h3], h3'⟩
        · simp only [List.cons_append, List.nil_append, List.mem_cons]
          rintro p (rfl | hp)
          · exact hxw
          · exact h4 p hp
        · rintro ⟨z, hz, h⟩
          rcases List.mem_cons.mp hz with rfl | hz
          · exact ⟨_, List.mem_cons_self .., h⟩
          · obtain ⟨p, hp, hp'⟩ := h5 ⟨z, hz, h⟩
            exact ⟨p, by simp [hp], hp'⟩
        · intro a b hab
          have := h6 a b hab
          simp only [twelfthPts, heq] at this
          simp [twelfthPts, densityIntegral, twelfths, this, heq]

/-- The distribution built from listed twelfths is valid and has their density. -/
theorem nodeWeightDist_spec {ns : List NodeWeight} (h : Twelfths ns) :
    ∃ d : WDist, nodeWeightDist ns = .weighted d ∧ d.Proper ∧
      ∀ a b, a ≤ b → densityIntegral 0 d.rel a b = twelfths ns a b := by
  obtain ⟨hrg, hasc, hadj, hw, hpos⟩ := h
  rcases ns with _ | ⟨x, rest⟩
  · obtain ⟨_, hx, _⟩ := hpos; cases hx
  have hx := hrg x (List.mem_cons_self ..)
  have hxq : (1 : ℚ) ≤ x.nodeNum := by exact_mod_cast hx.1
  obtain ⟨ext, h1, h2, ⟨l, h3, h3'⟩, h4, h5, h6⟩ := nodeLoop_spec rest 0 x
    (if (x.nodeNum : ℚ) - 1 > 0 then [⟨(x.nodeNum : ℚ) - 1, 0⟩] else []) ((x.nodeNum : ℚ) - 1)
    (by linarith) hrg hasc hadj hw
  have hy0 : x.nodeNum ≠ 0 := by omega
  have hy13 : x.nodeNum ≠ 13 := by omega
  have hd : nodeWeightDist (x :: rest) = .weighted
      ((if (x.nodeNum : ℚ) - 1 > 0 then [⟨(x.nodeNum : ℚ) - 1, 0⟩] else []) ++ ext) := by
    rw [nodeWeightDist, nodeLoop, if_neg hy0, if_neg hy13, ← h1]
    simp
  obtain ⟨p, hp, hp'⟩ := h5 hpos
  refine ⟨_, hd, ⟨?_, ?_⟩, ?_⟩
  · rw [WDist.isValid_iff]
    refine ⟨?_, ⟨p, by simp [hp], hp'⟩, ?_⟩
    · intro h0
      rw [List.append_eq_nil_iff] at h0
      rw [h0.2] at hp; cases hp
    · split_ifs with hc
      · simp only [List.cons_append, List.nil_append, WDist.isValidLoop, h2, Bool.and_true]
        exact decide_eq_true hc
      · have : (x.nodeNum : ℚ) - 1 = 0 := by linarith
        rw [this] at h2
        simpa using h2
  · intro q hq
    rcases List.mem_append.mp hq with hq | hq
    · split_ifs at hq
      · simp at hq; subst hq; exact le_rfl
      · cases hq
    · exact h4 q hq
  · intro a b hab
    have hlast : ((if (x.nodeNum : ℚ) - 1 > 0 then [⟨(x.nodeNum : ℚ) - 1, 0⟩] else []) ++ ext :
        WDist).getLast? = some l := by
      rw [List.getLast?_append, h3]; rfl
    have h6' := h6 a b hab
    simp only [twelfthPts] at h6'
    unfold WDist.rel
    rw [hlast]
    simp only [h3', List.map_append]
    split_ifs with hc
    · simp only [List.map_cons, List.map_nil, List.cons_append, List.nil_append, densityIntegral,
        zero_mul, zero_add, h6']
      simp [twelfths]
    · have : (x.nodeNum : ℚ) - 1 = 0 := by linarith
      rw [this, zero_div] at h6'
      simp only [List.map_nil, List.nil_append, h6']
      simp [twelfths, this]

/-- **C62.** A logic built from listed twelfths of the tank reads their weighted average temperature. -/
theorem C62_twelfths_average (ns : List NodeWeight) (h : Twelfths ns) (T : Nodes n ℚ) :
    Plant.averageDist T (nodeWeightDist ns) = .ok (twelfthsAverage ns T) := by
  obtain ⟨d, hd, hp, hden⟩ := nodeWeightDist_spec h
  rw [hd]
  show d.averageT T = _
  rw [WDist.averageT_eq (Nat.succ_pos n) hp, hden 0 1 zero_le_one]
  have e1 : twelfths ns 0 1 = (ns.map (·.weight)).sum / 12 := by
    have : ∀ ms : List NodeWeight, (∀ x ∈ ms, 1 ≤ x.nodeNum ∧ x.nodeNum ≤ 12) →
        twelfths ms 0 1 = (ms.map (·.weight)).sum / 12 := by
      intro ms
      induction ms with
      | nil => simp [twelfths]
      | cons x xs ih =>
        intro hm
        have hx := hm x (List.mem_cons_self ..)
        have h1 : (1 : ℚ) ≤ x.nodeNum := by exact_mod_cast hx.1
        have h2 : (x.nodeNum : ℚ) ≤ 12 := by exact_mod_cast hx.2
        have := ih fun y hy => hm y (List.mem_cons_of_mem _ hy)
        simp only [twelfths, List.map_cons, List.sum_cons] at this ⊢
        rw [this]
        have : overlap (((x.nodeNum : ℚ) - 1) / 12) ((x.nodeNum : ℚ) / 12) 0 1 = 1 / 12 := by
          unfold overlap
          rw [min_eq_left (by linarith), max_eq_left (a := ((x.nodeNum : ℚ) - 1) / 12)
            (div_nonneg (by linarith) (by norm_num)), max_eq_right (by linarith)]
          ring
        rw [this]; ring
    exact this ns h.range
  have e2 : ∑ i : Fin (n + 1), densityIntegral 0 d.rel ((i : ℚ) / (n + 1 : ℕ))
        (((i : ℚ) + 1) / (n + 1 : ℕ)) * T i =
      (ns.map fun x => x.weight * profileAverage T (((x.nodeNum : ℚ) - 1) / 12)
        ((x.nodeNum : ℚ) / 12)).sum / 12 := by
    have e3 : ∀ i : Fin (n + 1), densityIntegral 0 d.rel ((i : ℚ) / (n + 1 : ℕ))
        (((i : ℚ) + 1) / (n + 1 : ℕ)) = twelfths ns ((i : ℚ) / (n + 1 : ℕ))
        (((i : ℚ) + 1) / (n + 1 : ℕ)) := fun i => hden _ _ (cell_le (n + 1) i)
    simp only [e3]
    clear e3 e1 hden hp hd h
    induction ns with
    | nil => simp [twelfths]
    | cons x xs ih =>
      simp only [twelfths, List.map_cons, List.sum_cons] at ih ⊢
      simp only [add_mul, Finset.sum_add_distrib, ih]
      rw [add_div]
      congr 1
      unfold profileAverage profileIntegral
      rw [Finset.sum_div, Finset.mul_sum, Finset.sum_div]
      refine Finset.sum_congr rfl fun i _ => ?_
      rw [overlap_symm]
      ring
  rw [e1, e2]
  unfold twelfthsAverage
  congr 1
  rw [div_div_div_cancel_right₀ (by norm_num)]

/-- A quarter of the tank with different weights, and a single twelfth as in the presets. -/
example : Twelfths [⟨3, 1⟩, ⟨4, 1⟩, ⟨7, 2⟩] ∧ Twelfths [⟨4, 1⟩] :=
  ⟨⟨by decide, by decide, by decide +kernel, by decide +kernel, by decide +kernel⟩,
   ⟨by decide, by decide, by decide +kernel, by decide +kernel, by decide +kernel⟩⟩

/-- Finding: equal weights on twelfths that are not adjacent are merged into one range, so the lowest and
the highest twelfth read as the whole tank. -/
theorem C62_separate_twelfths_merged :
    nodeWeightDist [⟨1, 1⟩, ⟨12, 1⟩] = .weighted [⟨12, 1⟩] ∧
    ∃ T : Nodes 11 ℚ, ∃ x, Plant.averageDist T (nodeWeightDist [⟨1, 1⟩, ⟨12, 1⟩]) = .ok x ∧
      x ≠ twelfthsAverage [⟨1, 1⟩, ⟨12, 1⟩] T :=
  ⟨by decide +kernel, fun i => if i = 0 then 12 else 0, by decide +kernel⟩

/-- Finding: the number one above the highest twelfth, which by analogy with 0 for the bottom node would
be the top node, gives an empty part of the tank: the logic is not valid and cannot be evaluated. -/
theorem C62_top_node_number_invalid (w : ℚ) :
    nodeWeightDist [⟨13, w⟩] = .weighted [] ∧ (nodeWeightDist [⟨13, w⟩]).isValid = false ∧
    ∀ T : Nodes n ℚ, Plant.averageDist T (nodeWeightDist [⟨13, w⟩]) = .error .ub :=
  ⟨rfl, rfl, fun _ => rfl⟩

/-! ## C55 -/

/-- First moment of the density given by `(height, weight)` points above height `prev`. -/
def Spec.moment : (prev : ℚ) → List (ℚ × ℚ) → ℚ
  | _, [] => 0
  | prev, (h, w) :: ds => w * ((h ^ 2 - prev ^ 2) / 2) + moment h ds

/-- Mean relative height of a distribution. -/
def Spec.meanHeight (d : WDist) : ℚ := moment 0 d.rel / densityIntegral 0 d.rel 0 1

/-- The fraction of the tank below the place a temperature logic looks at: one node for the bottom node,
the whole tank for the top node, otherwise half a twelfth above the mean height. -/
def Spec.sizingFraction (n : ℕ) : Dist → ℚ
  | .bottom => 1 / ((n : ℚ) + 1)
  | .top => 1
  | .weighted d => meanHeight d + 1 / 24

/-- The logic looks at a well-defined part `d` of the tank. -/
def Spec.LooksAt (l : Logic) (d : Dist) : Prop :=
  (∃ absolute, l.kind = .temp absolute d) ∧ ∀ w, d = .weighted w → w.Proper

theorem avgFractLoop_eq {H : ℚ} (hH : 0 < H) : ∀ (d : WDist) (L a w : ℚ),
    WDist.isValidLoop L d = true →
    (Sim.avgFractLoop L d a w).1 = a + H ^ 2 * moment (L / H) (WDist.pts H d) ∧
    (Sim.avgFractLoop L d a w).2.1 = w + WDist.totalLoop L d ∧
    (Sim.avgFractLoop L d a w).2.2 = (d.getLast?.map (·.height)).getD L
  | [], L, a, w, _ => by simp [Sim.avgFractLoop, WDist.pts, moment, WDist.totalLoop]
  | p :: ps, L, a, w, hv => by
    simp only [WDist.isValidLoop, Bool.and_eq_true, decide_eq_true_eq] at hv
    obtain ⟨h1, h2, h3⟩ := avgFractLoop_eq hH ps p.height
      (a + p.weight * (p.height - L) * (1 / 2 * (p.height + L))) (w + p.weight * (p.height - L)) hv.2
    simp only [Sim.avgFractLoop]
    refine ⟨?_, ?_, ?_⟩
    · rw [h1]
      simp only [WDist.pts, List.map_cons, moment]
      have := hH.ne'
      field_simp
      ring
    · rw [h2, WDist.totalLoop]; ring
    · rw [h3]
      rcases ps with _ | ⟨q, qs⟩
      · rfl
      · rw [List.getLast?_cons_cons]
        simp [List.getLast?_eq_some_getLast]

theorem moment_bounds : ∀ (ds : List (ℚ × ℚ)) (L : ℚ), 0 ≤ L → Ascending L ds → (∀ p ∈ ds, 0 ≤ p.2) →
    (∀ p ∈ ds, p.1 ≤ 1) → 0 ≤ moment L ds ∧ moment L ds ≤ densityIntegral L ds 0 1
  | [], _, _, _, _, _ => by simp [moment, densityIntegral]
  | (h, w) :: ds, L, hL, hs, hw, h1 => by
    obtain ⟨i1, i2⟩ := moment_bounds ds h (hL.trans hs.1.le) hs.2
      (fun p hp => hw p (List.mem_cons_of_mem _ hp)) (fun p hp => h1 p (List.mem_cons_of_mem _ hp))
    have hw0 := hw (h, w) (List.mem_cons_self ..)
    have hh1 : h ≤ 1 := h1 (h, w) (List.mem_cons_self ..)
    have hlt : L < h := hs.1
    simp only [moment, densityIntegral]
    have e : overlap L h 0 1 = h - L := by
      unfold overlap
      rw [min_eq_left hh1, max_eq_left hL, max_eq_right (by linarith)]
    rw [e]
    simp only at hw0
    have b1 : 0 ≤ (h ^ 2 - L ^ 2) / 2 := by nlinarith
    have b2 : (h ^ 2 - L ^ 2) / 2 ≤ h - L := by nlinarith
    constructor
    · have := mul_nonneg hw0 b1; linarith
    · have := mul_le_mul_of_nonneg_left b2 hw0; linarith

theorem meanHeight_bounds {d : WDist} (h : d.Proper) : 0 ≤ meanHeight d ∧ meanHeight d ≤ 1 := by
  obtain ⟨_, _, hs, hle, _⟩ := WDist.rel_facts h.valid
  obtain ⟨h1, h2⟩ := moment_bounds d.rel 0 le_rfl hs (WDist.rel_nonneg h) hle
  have := WDist.total_pos h
  exact ⟨div_nonneg h1 this.le, (div_le_one this).mpr h2⟩

theorem avgFract_eq {l : Logic} {d : Dist} (h : LooksAt l d) (p : Plant n) :
    Sim.avgFract l p = .ok (sizingFraction n d) := by
  obtain ⟨⟨b, hk⟩, hp⟩ := h
  unfold Sim.avgFract
  rw [hk]
  rcases d with _ | _ | w
  · rfl
  · rfl
  · have hw := hp w rfl
    obtain ⟨hd, hM, hs, hle, hx⟩ := WDist.rel_facts hw.valid
    obtain ⟨_, _, hvl⟩ := WDist.isValid_iff.mp hw.valid
    obtain ⟨h1, h2, h3⟩ := avgFractLoop_eq hM w 0 0 0 hvl
    have htot := WDist.totalLoop_eq hM le_rfl hvl (WDist.last_ge hd hvl).2
    rw [zero_div] at htot h1
    rw [← WDist.rel_eq hd] at htot h1
    have hpos := WDist.total_pos hw
    have h3' : (w.getLast?.map (·.height)).getD 0 = w.maximumHeight hd := by
      rw [List.getLast?_eq_some_getLast hd]; rfl
    rw [h3'] at h3
    have e2 : WDist.totalLoop 0 w = densityIntegral 0 w.rel 0 1 * w.maximumHeight hd := by
      rw [← htot, div_mul_cancel₀ _ hM.ne']
    simp only [h1, h2, h3, e2, zero_add, sizingFraction, meanHeight]
    rw [if_neg]
    · congr 1
      have := hM.ne'
      have := hpos.ne'
      field_simp
      ring
    · rintro (h | h)
      · rcases mul_eq_zero.mp h with h | h
        · exact hpos.ne' h
        · exact hM.ne' h
      · exact hM.ne' h

theorem sizingFraction_bounds {l : Logic} {d : Dist} (h : LooksAt l d) (hn : n + 1 ≤ 10000) :
    1 / 10000 ≤ sizingFraction n d ∧ sizingFraction n d ≤ 1 + 1 / 24 := by
  rcases d with _ | _ | w
  · have hn' : ((n : ℚ) + 1) ≤ 10000 := by exact_mod_cast hn
    have h0 : (0 : ℚ) < (n : ℚ) + 1 := by positivity
    simp only [sizingFraction]
    constructor
    · exact one_div_le_one_div_of_le h0 hn'
    · rw [div_le_iff₀ h0]
      have : (1 : ℚ) ≤ n + 1 := by
        have : (0 : ℚ) ≤ n := by positivity
        linarith
      linarith
  · simp only [sizingFraction]; norm_num
  · obtain ⟨h1, h2⟩ := meanHeight_bounds (h.2 w rfl)
    simp only [sizingFraction]
    constructor <;> linarith

/-- The smallest of `top` and the numbers `f x` for `x` in a list. -/
def Spec.SmallestOf {α : Type*} (top : ℚ) (xs : List α) (f : α → ℚ) (m : ℚ) : Prop :=
  (m = top ∨ ∃ x ∈ xs, m = f x) ∧ m ≤ top ∧ ∀ x ∈ xs, m ≤ f x

theorem SmallestOf.unique {α : Type*} {top : ℚ} {xs : List α} {f : α → ℚ} {m m' : ℚ}
    (h : SmallestOf top xs f m) (h' : SmallestOf top xs f m') : m = m' := by
  obtain ⟨h1, h2, h3⟩ := h
  obtain ⟨h1', h2', h3'⟩ := h'
  apply le_antisymm
  · rcases h1' with rfl | ⟨x, hx, rfl⟩
    · exact h2
    · exact h3 x hx
  · rcases h1 with rfl | ⟨x, hx, rfl⟩
    · exact h2'
    · exact h3' x hx

theorem minLoop_spec {α : Type*} {loop : List α → ℚ → Res ℚ} {f : α → ℚ} {P : α → Prop}
    (h0 : ∀ a, loop [] a = .ok a)
    (h1 : ∀ x xs a, P x → loop (x :: xs) a = loop xs (if f x < a then f x else a)) :
    ∀ xs a, (∀ x ∈ xs, P x) → ∃ m, loop xs a = .ok m ∧ SmallestOf a xs f m
  | [], a, _ => ⟨a, h0 a, Or.inl rfl, le_rfl, by simp⟩
  | x :: xs, a, hP => by
    obtain ⟨m, hm, h2, h3, h4⟩ := minLoop_spec h0 h1 xs (if f x < a then f x else a)
      fun y hy => hP y (List.mem_cons_of_mem _ hy)
    refine ⟨m, by rw [h1 _ _ _ (hP x (List.mem_cons_self ..)), hm], ?_, ?_, ?_⟩
    · rcases h2 with rfl | ⟨y, hy, rfl⟩
      · split_ifs
        · exact Or.inr ⟨x, List.mem_cons_self .., rfl⟩
        · exact Or.inl rfl
      · exact Or.inr ⟨y, List.mem_cons_of_mem _ hy, rfl⟩
    · refine h3.trans ?_
      split_ifs with h
      · exact h.le
      · exact le_rfl
    · intro y hy
      rcases List.mem_cons.mp hy with rfl | hy
      · refine h3.trans ?_
        split_ifs with h
        · exact le_rfl
        · exact not_lt.mp h
      · exact h4 y hy

/-- The fraction of the tank below the place a logic looks at. -/
def Spec.logicFraction (n : ℕ) (l : Logic) : ℚ :=
  match l.kind with
  | .temp _ d => sizingFraction n d
  | .soc _ _ _ _ => 0

/-- The fraction of the tank above the place a shut-off logic looks at; logics for large draws count as
the whole tank. -/
def Spec.usableFraction (n : ℕ) (l : Logic) : ℚ :=
  if l.description = "large draw" ∨ l.description = "larger draw" then 1 else 1 - logicFraction n l

/-- **C55.** Which fractions are reported for a simulator with temperature logics: the aquastat fraction
is the lowest place a turn-on logic of the main heat pump looks at; the usable fraction is the smallest
part of the tank above the place a shut-off logic looks at, moved just above the aquastat if the two
meet. -/
theorem C55_values (s : Sim n k) (hk : Known s) (j : Fin k) (c : CondCfg)
    (hj : MainHeatPump s.cfg.src j c) (hsoc : s.socControl = none)
    (hon : ∀ l ∈ (s.cfg.src j).turnOn, ∃ d, LooksAt l d)
    (hoff : ∀ l ∈ (s.cfg.src j).shutOff, ∃ d, LooksAt l d) :
    ∃ a u, SmallestOf 1 (s.cfg.src j).turnOn (logicFraction n) a ∧
      SmallestOf 1 (s.cfg.src j).shutOff (usableFraction n) u ∧
      s.getSizingFractions =
        .ok (a, if |a - (1 - u)| < 1 / 10000 then 1 - a + 1 / 10000 else u) := by
  have hf : ∀ l : Logic, (∃ d, LooksAt l d) → Sim.avgFract l s.toPlant = .ok (logicFraction n l) := by
    rintro l ⟨d, hd⟩
    rw [avgFract_eq hd]
    obtain ⟨⟨b, hb⟩, _⟩ := hd
    simp [logicFraction, hb]
  have h1 := minLoop_spec (loop := Sim.aquaLoop s.toPlant) (f := logicFraction n)
    (P := fun l => ∃ d, LooksAt l d) (fun _ => rfl)
    (fun l ls a hl => by rw [Sim.aquaLoop, hf l hl]; rfl) _ 1 hon
  have h2 := minLoop_spec (loop := Sim.useLoop s.toPlant) (f := usableFraction n)
    (P := fun l => ∃ d, LooksAt l d) (fun _ => rfl)
    (fun l ls a hl => by
      rw [Sim.useLoop]
      unfold usableFraction
      by_cases hd : l.description = "large draw" ∨ l.description = "larger draw"
      · simp only [if_pos hd]
      · simp only [if_neg hd, hf l hl]; rfl) _ 1 hoff
  obtain ⟨a, ha, ha'⟩ := h1
  obtain ⟨u, hu, hu'⟩ := h2
  refine ⟨a, u, ha', hu', ?_⟩
  have hc : s.compressor = .ok (j, c) := by
    unfold Sim.compressor
    rw [(hk.heatPump j).mpr ⟨c, hj⟩]
    have : (s.cfg.src j).kind = .condenser c := hj.1
    simp [this]
  unfold Sim.getSizingFractions
  rw [hc]
  simp only [bind, Except.bind, hsoc, ne_eq, not_true_eq_false, if_false, ha, hu]
  rfl

/-- **C55 (partial).** The aquastat fraction is in `(0, 1]` and the usable fraction at most 1; it is not
negative if no shut-off logic looks higher than 23/24 of the tank on average. The full property wants a
non-negative usable fraction for every shut-off logic; see `C55_usable_negative`. Tanks of more than
10000 nodes are excluded because the tolerance then exceeds one node. -/
theorem C55_range_partial (s : Sim n k) (hn : n + 1 ≤ 10000) (hk : Known s) (j : Fin k) (c : CondCfg)
    (hj : MainHeatPump s.cfg.src j c) (hsoc : s.socControl = none)
    (hon : ∀ l ∈ (s.cfg.src j).turnOn, ∃ d, LooksAt l d)
    (hoff : ∀ l ∈ (s.cfg.src j).shutOff, ∃ d, LooksAt l d) :
    ∃ a u, s.getSizingFractions = .ok (a, u) ∧ 0 < a ∧ a ≤ 1 ∧ -(1 / 24) ≤ u ∧ u ≤ 1 ∧
      ((∀ l ∈ (s.cfg.src j).shutOff, ∀ d, LooksAt l (.weighted d) → meanHeight d ≤ 23 / 24) →
        0 ≤ u) := by
  obtain ⟨a, u, ⟨ha1, ha2, ha3⟩, ⟨hu1, hu2, hu3⟩, hs⟩ := C55_values s hk j c hj hsoc hon hoff
  have hfl : ∀ l : Logic, (∃ d, LooksAt l d) →
      1 / 10000 ≤ logicFraction n l ∧ logicFraction n l ≤ 1 + 1 / 24 := by
    rintro l ⟨d, hd⟩
    have := sizingFraction_bounds hd hn
    obtain ⟨⟨b, hb⟩, _⟩ := hd
    simpa [logicFraction, hb] using this
  have hapos : 1 / 10000 ≤ a := by
    rcases ha1 with rfl | ⟨l, hl, rfl⟩
    · norm_num
    · exact (hfl l (hon l hl)).1
  have hulow : -(1 / 24) ≤ u := by
    rcases hu1 with rfl | ⟨l, hl, rfl⟩
    · norm_num
    · unfold usableFraction
      split_ifs
      · norm_num
      · have := (hfl l (hoff l hl)).2
        linarith
  refine ⟨_, _, hs, by linarith, ha2, ?_, ?_, ?_⟩
  · split_ifs <;> linarith
  · split_ifs <;> linarith
  · intro hm
    split_ifs
    · linarith
    · rcases hu1 with rfl | ⟨l, hl, rfl⟩
      · norm_num
      · unfold usableFraction
        split_ifs
        · norm_num
        · obtain ⟨d, hd⟩ := hoff l hl
          have hkind := hd.1
          obtain ⟨b, hb⟩ := hkind
          simp only [logicFraction, hb]
          rcases d with _ | _ | w
          · simp only [sizingFraction]
            have h0 : (0 : ℚ) ≤ n := by positivity
            rw [sub_nonneg, div_le_one (by linarith)]
            linarith
          · simp [sizingFraction]
          · have := hm l hl w hd
            simp only [sizingFraction]
            linarith

/-- A central heat pump that starts when the bottom third is 10 °C below the setpoint and stops when the
part of the tank above `a` is hot. -/
def sampleSizing (a : ℚ) : Sim 3 2 :=
  { sampleSim with
    cfg := { sampleSim.cfg with
      src := ![{ sampleExt with
        turnOn := [Logics.bottomThird 10]
        shutOff := [tempLogic "upper part" (.weighted (rangeDist a 1)) 60 true .greater] },
        sampleSim.cfg.src 1] } }

theorem sampleSizing_known (a : ℚ) : Known (sampleSizing a) :=
  known_of_kinds (sampleSizing a) _ _ rfl rfl rfl rfl

theorem sampleSizing_main (a : ℚ) : MainHeatPump (sampleSizing a).cfg.src 0 sampleExtCond := by
  refine ⟨rfl, fun j ⟨c, hc⟩ => ?_⟩
  by_contra h0
  have h1 : j = 1 := by omega
  subst h1
  cases hc

/-- The hypotheses of the theorems above are met by a usual configuration. -/
example : (sampleSizing (5 / 6)).socControl = none ∧
    (∀ l ∈ ((sampleSizing (5 / 6)).cfg.src 0).turnOn, ∃ d, LooksAt l d) ∧
    (∀ l ∈ ((sampleSizing (5 / 6)).cfg.src 0).shutOff, ∃ d, LooksAt l d) ∧
    ∃ r, (sampleSizing (5 / 6)).getSizingFractions = .ok r ∧ r = (5 / 24, 1 / 24) := by
  refine ⟨rfl, ?_, ?_, by decide +kernel⟩
  · intro l hl
    change l ∈ [Logics.bottomThird 10] at hl
    rw [List.mem_singleton] at hl
    subst hl
    exact ⟨_, ⟨_, rfl⟩, fun w hw => by cases hw; exact rangeDist_proper le_rfl (by norm_num) (by norm_num)⟩
  · intro l hl
    change l ∈ [tempLogic "upper part" (.weighted (rangeDist (5 / 6) 1)) 60 true .greater] at hl
    rw [List.mem_singleton] at hl
    subst hl
    exact ⟨_, ⟨_, rfl⟩, fun w hw => by
      cases hw; exact rangeDist_proper (by norm_num) (by norm_num) (by norm_num)⟩

/-- Finding: a shut-off logic that looks at less than the upper twelfth of the tank makes the usable
fraction negative. -/
theorem C55_usable_negative :
    ∃ r, (sampleSizing (23 / 24)).getSizingFractions = .ok r ∧ r.2 < 0 := by decide +kernel

end HPWH
