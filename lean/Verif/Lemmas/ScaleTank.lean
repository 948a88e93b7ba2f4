import Verif.Spec.Scale
import Mathlib.Tactic.Ring
import Mathlib.Tactic.Linarith
import Mathlib.Tactic.Positivity
import Mathlib.Algebra.Order.Field.Basic
import Mathlib.Algebra.BigOperators.Ring.Finset

/-! # Lemmas: a tank that is `a` times as large keeps the same temperatures -/

namespace HPWH

open _root_.HPWH.Units

variable {n : ℕ}

theorem res_map_bind {α β γ : Type} (g : β → γ) (x : Res α) (f : α → Res β) :
    Except.map g (x >>= f) = x >>= fun y => Except.map g (f y) := by cases x <;> rfl

theorem res_bind_map {α β γ : Type} (h : α → β) (x : Res α) (f : β → Res γ) :
    (Except.map h x >>= f) = x >>= fun y => f (h y) := by cases x <;> rfl

theorem res_bind_congr {α β : Type} {x : Res α} {f g : α → Res β} (h : ∀ y, f y = g y) :
    x >>= f = x >>= g := congrArg _ (funext h)

theorem mul_div_same {a : ℚ} (ha : 0 < a) (x y : ℚ) : a * x / (a * y) = x / y :=
  mul_div_mul_left x y ha.ne'

theorem mul_lt_same {a : ℚ} (ha : 0 < a) (x y : ℚ) : a * x < a * y ↔ x < y := mul_lt_mul_iff_right₀ ha
theorem mul_pos_same {a : ℚ} (ha : 0 < a) (x : ℚ) : 0 < a * x ↔ 0 < x := mul_pos_iff_of_pos_left ha
theorem mul_zero_same {a : ℚ} (ha : 0 < a) (x : ℚ) : a * x = 0 ↔ x = 0 := by simp [ha.ne']

/-! ## Mixing -/

theorem mixScan_scale {a : ℚ} (ha : 0 < a) (mass : ℚ) (T : Nodes n ℚ) (m : ℕ) (h : m ≤ n) (x y : ℚ) :
    mixScan (exactMixer (a * mass)) T m h (a * x, a * y) = mixScan (exactMixer mass) T m h (x, y) := by
  have key : ∀ (t x y : ℚ), (a * x + t * (a * mass)) / (a * y + a * mass) = (x + t * mass) / (y + mass) := by
    intro t x y
    rw [← mul_div_same ha (x + t * mass)]
    ring_nf
  induction m generalizing x y with
  | zero => simp only [mixScan, exactMixer, key]
  | succ m ih =>
    rw [mixScan, mixScan]
    have e : (exactMixer (a * mass)).push (a * x, a * y) (T ⟨m + 1, by omega⟩)
        = (a * ((exactMixer mass).push (x, y) (T ⟨m + 1, by omega⟩)).1,
           a * ((exactMixer mass).push (x, y) (T ⟨m + 1, by omega⟩)).2) := by
      simp only [exactMixer, Prod.mk.injEq]
      constructor <;> ring
    have e2 : (exactMixer (a * mass)).mean ((exactMixer (a * mass)).push (a * x, a * y) (T ⟨m + 1, by omega⟩))
        = (exactMixer mass).mean ((exactMixer mass).push (x, y) (T ⟨m + 1, by omega⟩)) := by
      simp only [exactMixer, key]
    simp only [e2]
    rw [e, ih]

theorem sweepFrom_scale {a : ℚ} (ha : 0 < a) (mass : ℚ) (i : ℕ) (h : i ≤ n) (s : Nodes n ℚ × Bool) :
    sweepFrom (exactMixer (a * mass)) i h s = sweepFrom (exactMixer mass) i h s := by
  induction i generalizing s with
  | zero => rfl
  | succ i ih =>
    obtain ⟨T, b⟩ := s
    have e : mixScan (exactMixer (a * mass)) T (i + 1) h (exactMixer (a * mass)).init
        = mixScan (exactMixer mass) T (i + 1) h (exactMixer mass).init := by
      have := mixScan_scale ha mass T (i + 1) h 0 0
      rwa [mul_zero] at this
    simp only [sweepFrom, e, ih]

theorem mixLoop_scale {a : ℚ} (ha : 0 < a) (mass : ℚ) (f : ℕ) (T : Nodes n ℚ) :
    mixLoop (exactMixer (a * mass)) f T = mixLoop (exactMixer mass) f T := by
  induction f generalizing T with
  | zero => rfl
  | succ f ih =>
    simp only [mixLoop, sweep, sweepFrom_scale ha, ih]
    rfl

theorem mixInversionsWith_scale {a : ℚ} (ha : 0 < a) (mass : ℚ) (T : Nodes n ℚ) :
    mixInversionsWith (exactMixer (a * mass)) T = mixInversionsWith (exactMixer mass) T := by
  unfold mixInversionsWith
  simp only [mixLoop_scale ha]

namespace Tank

theorem scale_mixInversions {a : ℚ} (ha : 0 < a) (t : Tank n) :
    (t.scale a).mixInversions = t.mixInversions.scale a := by
  unfold mixInversions
  have e : (t.scale a).volume_L / (t.scale a).numNodes * rhoWater = a * (t.volume_L / t.numNodes * rhoWater) := by
    simp only [scale, numNodes]; ring
  rw [e, mixInversionsWith_scale ha]
  by_cases h : t.doInversionMixing <;> simp only [scale, h, if_true, if_false, Bool.false_eq_true]

/-! ## Draws -/

theorem scale_drawIncrement {a : ℚ} (ha : 0 < a) (t : Tank n) (s : Inlets) (inc : ℚ) :
    drawIncrement (t.scale a) s inc = (a * (drawIncrement t s inc).1, (drawIncrement t s inc).2.scale a) := by
  unfold drawIncrement
  have e : (t.scale a).nodeCp * inc * (t.scale a).nodeTs (Fin.last n)
      = a * (t.nodeCp * inc * t.nodeTs (Fin.last n)) := by simp only [scale]; ring
  have e2 : (t.scale a).nodeCp = a * t.nodeCp := rfl
  dsimp only
  rw [e, e2, mul_div_same ha, ← scale_mixInversions ha]
  rfl

theorem scale_drawLoop {a : ℚ} (ha : 0 < a) (s : Inlets) (fuel : ℕ) (r e : ℚ) (t : Tank n) :
    drawLoop s fuel r (a * e) (t.scale a) = (drawLoop s fuel r e t).map fun p => (a * p.1, p.2.scale a) := by
  induction fuel generalizing r e t with
  | zero => unfold drawLoop; split_ifs <;> rfl
  | succ fuel ih =>
    rw [drawLoop, drawLoop]
    by_cases h : r > 0
    · simp only [h, if_true, scale_drawIncrement ha, ← mul_add]
      exact ih _ _ _
    · simp only [h, if_false, Option.map_some]

theorem scale_draw {a : ℚ} (ha : 0 < a) (s : Inlets) (v : ℚ) (t : Tank n) :
    draw (t.scale a) s v = (a * (draw t s v).1, (draw t s v).2.scale a) := by
  unfold draw
  have := scale_drawLoop ha s ⌈v⌉₊ v 0 t
  rw [mul_zero] at this
  simp only [this, Option.get_map]

theorem hxLoop_scale {a : ℚ} (ha : 0 < a) (drawCp nodeCp eff : ℚ) (k j : ℕ) (h : k + j = n + 1)
    (s : ℚ × Nodes n ℚ) :
    hxLoop (a * drawCp) (a * nodeCp) eff k j h s = hxLoop drawCp nodeCp eff k j h s := by
  induction j generalizing k s with
  | zero => rfl
  | succ j ih =>
    obtain ⟨o, T⟩ := s
    rw [hxLoop, hxLoop]
    rw [ih, show eff * (a * drawCp * (T ⟨k, by omega⟩ - o)) = a * (eff * (drawCp * (T ⟨k, by omega⟩ - o))) by ring,
      mul_div_same ha, mul_div_same ha]

theorem scale_drawWater {a : ℚ} (ha : 0 < a) (t : Tank n) (v T v2 T2 : ℚ) :
    (t.scale a).drawWater (a * v) T (a * v2) T2 = (t.drawWater v T v2 T2).scale a := by
  have e1 : sortInlets (t.scale a) (a * v) T (a * v2) T2 = sortInlets t v T v2 T2 := by
    simp only [sortInlets, mul_div_same ha]; rfl
  have e2 : cpWater * rhoWater * (a * v) = a * (cpWater * rhoWater * v) := by ring
  have e3 : a * v / (t.scale a).nodeVolume_L = v / t.nodeVolume_L := mul_div_same ha _ _
  have e4 : (t.scale a).nodeCp = a * t.nodeCp := rfl
  unfold drawWater
  simp only [e1, e2, e3, e4, hxLoop_scale ha, scale_draw ha, mul_div_same ha]
  have e5 : (t.scale a).hasHeatExchanger = t.hasHeatExchanger := rfl
  rw [e5]
  split_ifs <;> rfl

theorem scale_mixBottom (a : ℚ) (t : Tank n) : (t.scale a).mixBottom = Except.map (scale a) t.mixBottom := by
  unfold mixBottom
  have e1 : (t.scale a).mixesOnDraw = t.mixesOnDraw := rfl
  have e2 : (t.scale a).nodeTs = t.nodeTs := rfl
  have e3 : (t.scale a).mixedBelowNode = t.mixedBelowNode := rfl
  rw [e1, e2, e3]
  split_ifs
  · cases mixNodes t.nodeTs 0 t.mixedBelowNode (1 / 3) <;> rfl
  · rfl

theorem scale_processDraw {a : ℚ} (ha : 0 < a) (t : Tank n) (v T v2 T2 : ℚ) :
    (t.scale a).processDraw (a * v) T (a * v2) T2 = Except.map (scale a) (t.processDraw v T v2 T2) := by
  unfold processDraw
  simp only [gt_iff_lt, mul_pos_same ha, mul_lt_same ha, scale_drawWater ha, scale_mixBottom]
  split_ifs <;> rfl

/-! ## Losses -/

theorem scale_lossBottom (a : ℚ) (t : Tank n) (h amb : ℚ) :
    (t.scale a).lossBottom h amb = a * t.lossBottom h amb := by
  simp only [lossBottom, endLossRate, scale]; ring
theorem scale_lossTop (a : ℚ) (t : Tank n) (h amb : ℚ) : (t.scale a).lossTop h amb = a * t.lossTop h amb := by
  simp only [lossTop, endLossRate, scale]; ring
theorem scale_lossSide (a : ℚ) (t : Tank n) (h amb : ℚ) (k : Fin (n + 1)) :
    (t.scale a).lossSide h amb k = a * t.lossSide h amb k := by
  simp only [lossSide, sideLossRate, scale, numNodes]; ring

theorem scale_afterLosses {a : ℚ} (ha : 0 < a) (t : Tank n) (h amb : ℚ) :
    (t.scale a).afterLosses h amb = t.afterLosses h amb := by
  unfold afterLosses
  have e : (t.scale a).nodeCp = a * t.nodeCp := rfl
  simp only [scale_lossBottom, scale_lossTop, scale_lossSide, e, mul_div_same ha]
  rfl

theorem scale_nextNodes {a : ℚ} (ha : 0 < a) (t : Tank n) (h sec amb : ℚ) :
    (t.scale a).nextNodes h sec amb = t.nextNodes h sec amb := by
  unfold nextNodes
  rw [scale_afterLosses ha]
  rfl

theorem scale_stepLosses (a : ℚ) (t : Tank n) (h amb : ℚ) :
    (t.scale a).stepLosses h amb = a * t.stepLosses h amb := by
  simp only [stepLosses, scale_lossBottom, scale_lossTop, scale_lossSide, ← Finset.mul_sum, mul_add]

theorem scale_processLosses {a : ℚ} (ha : 0 < a) (t : Tank n) (h sec amb : ℚ) :
    (t.scale a).processLosses h sec amb = Except.map (scale a) (t.processLosses h sec amb) := by
  unfold processLosses
  have e1 : (t.scale a).doConduction = t.doConduction := rfl
  have e2 : (t.scale a).tau sec = t.tau sec := rfl
  rw [e1, e2, scale_nextNodes ha, scale_stepLosses]
  split_ifs
  · rfl
  · refine congrArg Except.ok ?_
    rw [← scale_mixInversions ha]
    refine congrArg mixInversions ?_
    simp only [scale, mul_add]

theorem scale_updateNodes {a : ℚ} (ha : 0 < a) (t : Tank n) (h sec v T amb v2 T2 : ℚ) :
    (t.scale a).updateNodes h sec (a * v) T amb (a * v2) T2
      = Except.map (scale a) (t.updateNodes h sec v T amb v2 T2) := by
  unfold updateNodes
  rw [scale_processDraw ha]
  cases t.processDraw v T v2 T2 with
  | error e => rfl
  | ok t1 => exact scale_processLosses ha t1 h sec amb

/-! ## Adding heat -/

theorem addHeatLoop_scale {a : ℚ} (ha : 0 < a) (nodeCp maxT : ℚ) (node : ℕ) (hn : node < n + 1) (num room : ℕ)
    (h : node + num + room = n + 2) (q : ℚ) (T : Nodes n ℚ) :
    addHeatLoop (a * nodeCp) maxT node hn num room h (a * q) T
      = (a * (addHeatLoop nodeCp maxT node hn num room h q T).1,
         (addHeatLoop nodeCp maxT node hn num room h q T).2) := by
  induction room generalizing num q T with
  | zero => rfl
  | succ room ih =>
    rw [addHeatLoop, addHeatLoop]
    simp only [gt_iff_lt, mul_pos_same ha]
    by_cases hq : 0 < q
    · simp only [hq, if_true]
      have ez := ih (num + 1) (by omega) 0
      rw [mul_zero] at ez
      have ep : ∀ x : ℚ, (num : ℚ) * (a * nodeCp) * x = a * (num * nodeCp * x) := fun x => by ring
      simp only [ep, mul_lt_same ha, mul_pos_same ha, mul_div_same ha, ← mul_sub, ez, ih]
      split_ifs <;> rfl
    · simp only [hq, if_false]

theorem scale_addHeatAboveNode {a : ℚ} (ha : 0 < a) (t : Tank n) (q : ℚ) (j : Fin (n + 1)) (maxT : ℚ) :
    (t.scale a).addHeatAboveNode (a * q) j maxT
      = (a * (t.addHeatAboveNode q j maxT).1, (t.addHeatAboveNode q j maxT).2.scale a) := by
  unfold addHeatAboveNode
  have e : (t.scale a).nodeCp = a * t.nodeCp := rfl
  have e2 : (t.scale a).nodeTs = t.nodeTs := rfl
  simp only [e, e2, addHeatLoop_scale ha]
  rfl

theorem addExtraLoop_scale {a : ℚ} (ha : 0 < a) (nodeCp : ℚ) (node : ℕ) (hn : node < n + 1) (num room : ℕ)
    (h : node + num + room = n + 2) (q : ℚ) (T : Nodes n ℚ) :
    addExtraLoop (a * nodeCp) node hn num room h (a * q) T
      = (a * (addExtraLoop nodeCp node hn num room h q T).1,
         (addExtraLoop nodeCp node hn num room h q T).2) := by
  induction room generalizing num q T with
  | zero => rfl
  | succ room ih =>
    rw [addExtraLoop, addExtraLoop]
    simp only [gt_iff_lt, mul_pos_same ha]
    by_cases hq : 0 < q
    · simp only [hq, if_true]
      have ez := ih (num + 1) (by omega) 0
      rw [mul_zero] at ez
      have ep : ∀ x : ℚ, a * nodeCp * (num : ℚ) * x = a * (nodeCp * num * x) := fun x => by ring
      simp only [ep, mul_lt_same ha, mul_pos_same ha, mul_div_same ha, ← mul_sub, ez, ih]
      split_ifs <;> rfl
    · simp only [hq, if_false]

theorem scale_addExtraHeatAboveNode {a : ℚ} (ha : 0 < a) (t : Tank n) (q : ℚ) (j : Fin (n + 1)) :
    (t.scale a).addExtraHeatAboveNode (a * q) j = (t.addExtraHeatAboveNode q j).scale a := by
  unfold addExtraHeatAboveNode
  have e : (t.scale a).nodeCp = a * t.nodeCp := rfl
  have e2 : (t.scale a).nodeTs = t.nodeTs := rfl
  simp only [e, e2, addExtraLoop_scale ha]
  rfl

end Tank

end HPWH
