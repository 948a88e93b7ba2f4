import Verif.Spec.BottomMixing
import Verif.Props.Alike

/-! # C108: draws mix the bottom of the tank -/

namespace HPWH

open Spec
open _root_.HPWH.Units

variable {n k : ℕ}

namespace Tank

/-- The tank without mixing at the bottom. -/
def unmixed (t : Tank n) : Tank n := { t with mixesOnDraw := false }

theorem unmixed_mixInversions (t : Tank n) : t.unmixed.mixInversions = t.mixInversions.unmixed := by
  unfold mixInversions
  by_cases h : t.doInversionMixing <;> simp only [unmixed, h, if_true, if_false, Bool.false_eq_true]
  all_goals rfl

theorem unmixed_drawIncrement (t : Tank n) (s : Inlets) (inc : ℚ) :
    drawIncrement t.unmixed s inc = ((drawIncrement t s inc).1, (drawIncrement t s inc).2.unmixed) := by
  unfold drawIncrement
  simp only
  rw [← unmixed_mixInversions]
  rfl

theorem unmixed_drawLoop (s : Inlets) (fuel : ℕ) (r e : ℚ) (t : Tank n) :
    drawLoop s fuel r e t.unmixed = (drawLoop s fuel r e t).map fun p => (p.1, p.2.unmixed) := by
  induction fuel generalizing r e t with
  | zero => unfold drawLoop; split_ifs <;> rfl
  | succ fuel ih =>
    rw [drawLoop, drawLoop]
    split_ifs
    · simp only [unmixed_drawIncrement]; exact ih _ _ _
    · simp only [unmixed_drawIncrement]; exact ih _ _ _
    · rfl

theorem unmixed_draw (s : Inlets) (v : ℚ) (t : Tank n) :
    draw t.unmixed s v = ((draw t s v).1, (draw t s v).2.unmixed) := by
  unfold draw
  simp only [unmixed_drawLoop, Option.get_map]

theorem unmixed_drawWater (t : Tank n) (v T v2 T2 : ℚ) :
    t.unmixed.drawWater v T v2 T2 = (t.drawWater v T v2 T2).unmixed := by
  unfold drawWater
  have hs : sortInlets t.unmixed v T v2 T2 = sortInlets t v T v2 T2 := rfl
  by_cases h : t.hasHeatExchanger = true
  · have h' : t.unmixed.hasHeatExchanger = true := h
    simp only [h, h', if_true]; rfl
  · have h' : ¬ t.unmixed.hasHeatExchanger = true := h
    simp only [h, h', hs, unmixed_draw]; rfl

theorem mixedBelowNode_within (t : Tank n) (h : 0 ≤ t.mixBelowFractionOnDraw) :
    NodesWithin (n + 1) t.mixBelowFractionOnDraw t.mixedBelowNode := by
  have h0 : 0 ≤ t.numNodes * t.mixBelowFractionOnDraw := mul_nonneg t.numNodes_pos.le h
  have h1 : ((t.mixedBelowNode : ℤ)) = ⌊t.numNodes * t.mixBelowFractionOnDraw⌋ :=
    Int.toNat_of_nonneg (Int.floor_nonneg.mpr h0)
  have h2 : ((t.mixedBelowNode : ℚ)) = ((⌊t.numNodes * t.mixBelowFractionOnDraw⌋ : ℤ) : ℚ) := by exact_mod_cast congrArg (Int.cast : ℤ → ℚ) h1
  have e : ((n + 1 : ℕ) : ℚ) * t.mixBelowFractionOnDraw = t.numNodes * t.mixBelowFractionOnDraw := by
    unfold numNodes; push_cast; rfl
  unfold NodesWithin
  rw [e, h2]
  exact ⟨Int.floor_le _, Int.lt_floor_add_one _⟩

theorem mixNodes_bottom {T T' : Nodes n ℚ} {m : ℕ} (h : mixNodes T 0 m (1 / 3) = .ok T') : BottomMixed m T T' := by
  refine ⟨?_, ?_, mixNodes_sum _ _ _ _ _ h⟩
  all_goals
    unfold mixNodes at h
    split_ifs at h with h1 h2
    · cases h
      intro i
      first
        | (intro _; rfl)
        | (intro j hi _; omega)
    · dsimp only at h
      cases h
      intro i
      first
        | (intro hi
           exact if_neg (by omega))
        | (intro j hi hj
           dsimp only
           rw [if_pos ⟨Nat.zero_le _, hi⟩, if_pos ⟨Nat.zero_le _, hj⟩]
           ring)

end Tank

/-- **C108.** In a tank that is set to mix on draws, a draw does what it does without that setting, the same water is
delivered, and then the lowest part of the tank is mixed by a third. -/
theorem C108_draw (t t' : Tank n) (v T v2 T2 : ℚ) (hv : 0 < v) (hm : t.mixesOnDraw = true)
    (hf : 0 ≤ t.mixBelowFractionOnDraw) (h : t.processDraw v T v2 T2 = .ok t') :
    ∃ t0 m, Tank.processDraw { t with mixesOnDraw := false } v T v2 T2 = .ok t0 ∧
      NodesWithin (n + 1) t.mixBelowFractionOnDraw m ∧ BottomMixed m t0.nodeTs t'.nodeTs ∧
      t' = { t0 with mixesOnDraw := true, nodeTs := t'.nodeTs } := by
  obtain ⟨h2, h⟩ := Tank.processDraw_ok t t' v T v2 T2 hv h
  have e := Tank.unmixed_drawWater t v T v2 T2
  have hc := Tank.drawWater_cfg t v T v2 T2
  have hm' : (t.drawWater v T v2 T2).mixesOnDraw = true := by rw [hc]; exact hm
  have hw : (t.drawWater v T v2 T2).mixBelowFractionOnDraw = t.mixBelowFractionOnDraw := by rw [hc]
  refine ⟨(t.drawWater v T v2 T2).unmixed, (t.drawWater v T v2 T2).mixedBelowNode, ?_, ?_, ?_⟩
  · unfold Tank.processDraw
    rw [if_pos hv, if_neg (not_lt.mpr h2)]
    change (t.unmixed.drawWater v T v2 T2).mixBottom = _
    rw [e]
    unfold Tank.mixBottom
    rw [if_neg (by simp [Tank.unmixed])]
  · rw [← hw]
    exact Tank.mixedBelowNode_within _ (by rw [hw]; exact hf)
  · unfold Tank.mixBottom at h
    rw [if_pos hm'] at h
    cases hx : Tank.mixNodes (t.drawWater v T v2 T2).nodeTs 0 (t.drawWater v T v2 T2).mixedBelowNode (1 / 3) with
    | error e => rw [hx] at h; cases h
    | ok X =>
      rw [hx] at h
      cases h
      refine ⟨Tank.mixNodes_bottom hx, ?_⟩
      have : t.drawWater v T v2 T2 = { t.drawWater v T v2 T2 with mixesOnDraw := true } := by
        rw [← hm']
      conv_lhs => rw [this]
      rfl

/-- A tank of four nodes that mixes its lower half on draws: the draw cools its lowest node most, and mixing evens that out
in part. -/
example : (∃ t', Tank.processDraw { sampleTank with mixesOnDraw := true, mixBelowFractionOnDraw := 1 / 2 } 10 10 0 10 = .ok t' ∧
      t'.nodeTs 0 < t'.nodeTs 1) ∧
    ∃ t0 t', Tank.processDraw { sampleTank with mixesOnDraw := false, mixBelowFractionOnDraw := 1 / 2 } 10 10 0 10 = .ok t0 ∧
      Tank.processDraw { sampleTank with mixesOnDraw := true, mixBelowFractionOnDraw := 1 / 2 } 10 10 0 10 = .ok t' ∧
      t0.nodeTs 0 < t'.nodeTs 0 := by
  refine ⟨by decide +kernel, ?_⟩
  have key : (do
      let a ← Tank.processDraw { sampleTank with mixesOnDraw := false, mixBelowFractionOnDraw := 1 / 2 } 10 10 0 10
      let b ← Tank.processDraw { sampleTank with mixesOnDraw := true, mixBelowFractionOnDraw := 1 / 2 } 10 10 0 10
      return decide (a.nodeTs 0 < b.nodeTs 0)) = (.ok true : Res Bool) := by decide +kernel
  rw [bind_ok_iff] at key
  obtain ⟨a, ha, key⟩ := key
  rw [bind_ok_iff] at key
  obtain ⟨b, hb, key⟩ := key
  exact ⟨a, b, ha, hb, of_decide_eq_true (Except.ok.inj key)⟩

end HPWH
