import Verif.Props.MixExact
import Verif.Props.Cooling
import Verif.Spec.Compare

/-! # C96: warmer water stays warmer -/

namespace HPWH

open Spec Sim
open _root_.HPWH.Units

variable {n k : ℕ}

namespace MixExact

/-- Sum of the nodes from `a` to below `b`. -/
theorem psum_sub_le (T U : Nodes n ℚ) (h : ∀ j, T j ≤ U j) (a : ℕ) (m : ℕ) :
    psum T (a + m) - psum T a ≤ psum U (a + m) - psum U a := by
  induction m with
  | zero => simp
  | succ m ih =>
    have e := psum_succ T (a + m)
    have f := psum_succ U (a + m)
    have g : ext T (a + m) ≤ ext U (a + m) := by
      unfold ext
      split
      · exact h _
      · exact le_rfl
    rw [← add_assoc]
    linarith

theorem psum_ge (I : Nodes n ℚ) (v : ℚ) (a m : ℕ) (h : ∀ j, a ≤ j → j < a + m → v ≤ ext I j) :
    m * v ≤ psum I (a + m) - psum I a := by
  induction m with
  | zero => simp
  | succ m ih =>
    have e := psum_succ I (a + m)
    have := h (a + m) (by omega) (by omega)
    have := ih fun j h1 h2 => h j h1 (by omega)
    rw [← add_assoc]
    push_cast
    linarith

theorem psum_le (I : Nodes n ℚ) (v : ℚ) (a m : ℕ) (h : ∀ j, a ≤ j → j < a + m → ext I j ≤ v) :
    psum I (a + m) - psum I a ≤ m * v := by
  induction m with
  | zero => simp
  | succ m ih =>
    have e := psum_succ I (a + m)
    have := h (a + m) (by omega) (by omega)
    have := ih fun j h1 h2 => h j h1 (by omega)
    rw [← add_assoc]
    push_cast
    linarith

theorem Mixed.mono_le {T I : Nodes n ℚ} (hI : Mixed T I) (i j : ℕ) (h : i ≤ j) (hj : j < n + 1) :
    ext I i ≤ ext I j := by
  induction j, h using Nat.le_induction with
  | base => exact le_rfl
  | succ j h ih => exact (ih (by omega)).trans (hI.mono j (by omega))

/-- The run of equal nodes that ends at `i` starts where no heat has passed. -/
theorem Mixed.start {T I : Nodes n ℚ} (hI : Mixed T I) (i : ℕ) (hi : i < n + 1) :
    ∃ a, a ≤ i ∧ psum I a = psum T a ∧ ∀ j, a ≤ j → j ≤ i → ext I j = ext I i := by
  induction i with
  | zero => exact ⟨0, le_rfl, by simp [psum], fun j _ h => by rw [Nat.le_zero.mp h]⟩
  | succ i ih =>
    rcases (hI.mono i hi).lt_or_eq with h | h
    · refine ⟨i + 1, le_rfl, hI.eq i hi h, fun j h1 h2 => ?_⟩
      rw [show j = i + 1 by omega]
    · obtain ⟨a, h1, h2, h3⟩ := ih (by omega)
      refine ⟨a, by omega, h2, fun j hj1 hj2 => ?_⟩
      rcases Nat.lt_or_ge i j with hlt | hge
      · rw [show j = i + 1 by omega]
      · rw [h3 j hj1 hge, h]

/-- The run of equal nodes that starts at `i` ends where no heat has passed. -/
theorem Mixed.stop {T I : Nodes n ℚ} (hI : Mixed T I) (m : ℕ) : ∀ i, i + m = n →
    ∃ b, i ≤ b ∧ b < n + 1 ∧ psum I (b + 1) = psum T (b + 1) ∧ ∀ j, i ≤ j → j ≤ b → ext I j = ext I i := by
  induction m with
  | zero =>
    intro i hi
    obtain rfl : i = n := by omega
    exact ⟨i, le_rfl, by omega, hI.total, fun j h1 h2 => by rw [show j = i by omega]⟩
  | succ m ih =>
    intro i hi
    rcases (hI.mono i (by omega)).lt_or_eq with h | h
    · exact ⟨i, le_rfl, by omega, hI.eq i (by omega) h, fun j h1 h2 => by rw [show j = i by omega]⟩
    · obtain ⟨b, h1, h2, h3, h4⟩ := ih (i + 1) (by omega)
      refine ⟨b, by omega, h2, h3, fun j hj1 hj2 => ?_⟩
      rcases Nat.lt_or_ge i j with hlt | hge
      · rw [h4 j hlt hj2, h]
      · rw [show j = i by omega]

/-- Mixing inversions keeps the order between two tanks. -/
theorem Mixed.order {T I U J : Nodes n ℚ} (hI : Mixed T I) (hJ : Mixed U J) (h : ∀ j, T j ≤ U j)
    (i : Fin (n + 1)) : I i ≤ J i := by
  have hi := i.isLt
  rw [← ext_val I, ← ext_val J]
  obtain ⟨a, a1, a2, a3⟩ := hI.start i.val hi
  obtain ⟨b, b1, b2, b3, b4⟩ := hJ.stop (n - i.val) i.val (by omega)
  obtain ⟨m, hm⟩ : ∃ m, b + 1 = a + m := ⟨b + 1 - a, by omega⟩
  have hmpos : (0 : ℚ) < m := by
    have : 0 < m := by omega
    exact_mod_cast this
  have e1 : (m : ℚ) * ext I i.val ≤ psum I (a + m) - psum I a := by
    refine psum_ge I _ a m fun j h1 h2 => ?_
    rcases Nat.le_total j i.val with h | h
    · rw [a3 j h1 h]
    · exact hI.mono_le _ _ h (by omega)
  have e2 : psum J (a + m) - psum J a ≤ m * ext J i.val := by
    refine psum_le J _ a m fun j h1 h2 => ?_
    rcases Nat.le_total i.val j with h | h
    · rw [b4 j h (by omega)]
    · exact hJ.mono_le _ _ h (by omega)
  have e3 := psum_sub_le T U h a m
  have e4 := hI.le (a + m) (by omega)
  have e5 := hJ.le a (by omega)
  rw [hm] at b3
  have : (m : ℚ) * ext I i.val ≤ m * ext J i.val := by linarith
  exact le_of_mul_le_mul_left this hmpos

end MixExact

namespace Tank

theorem mixInversions_order {t u : Tank n} (hv : t.volume_L ≠ 0) (hcfg : u.toTankCfg = t.toTankCfg)
    (h : ∀ j, t.nodeTs j ≤ u.nodeTs j) (j : Fin (n + 1)) :
    t.mixInversions.nodeTs j ≤ u.mixInversions.nodeTs j := by
  by_cases hmix : t.doInversionMixing = true
  · have hmix2 : u.doInversionMixing = true := by rw [hcfg]; exact hmix
    have a := (C02_mixing_exact t hv hmix _).mpr rfl
    have b := (C02_mixing_exact u (by rw [hcfg]; exact hv) hmix2 _).mpr rfl
    exact (MixExact.mixed_iff _ _ |>.mp a).order (MixExact.mixed_iff _ _ |>.mp b) h j
  · have hmix2 : ¬ u.doInversionMixing = true := by rw [hcfg]; exact hmix
    unfold mixInversions
    rw [if_neg hmix, if_neg hmix2]
    exact h j

theorem drawSweepFrom_order (s s' : Inlets) (inc : ℚ) (hinc0 : 0 ≤ inc) (hinc1 : inc ≤ 1)
    (en : s'.highNode = s.highNode ∧ s'.lowNode = s.lowNode ∧ s'.highFrac = s.highFrac ∧ s'.lowFrac = s.lowFrac)
    (hh : 0 ≤ s.highFrac) (hl : 0 ≤ s.lowFrac) (hsum : s.highFrac + s.lowFrac = 1)
    (hhT : s.highT ≤ s'.highT) (hlT : s.lowT ≤ s'.lowT) (i : ℕ) (h : i < n + 1) (T U : Nodes n ℚ)
    (hTU : ∀ j, T j ≤ U j) :
    ∀ j, drawSweepFrom s inc i h (fracAbove s i) T j ≤ drawSweepFrom s' inc i h (fracAbove s i) U j := by
  obtain ⟨en1, en2, en3, en4⟩ := en
  have hat : ∀ j, inletAt s j ≤ inletAt s' j := by
    intro j
    unfold inletAt
    rw [en1, en2, en3, en4]
    split_ifs <;> nlinarith
  have hfa : ∀ j, fracAt s' j = fracAt s j := by
    intro j
    unfold fracAt
    rw [en1, en2, en3, en4]
  have hab : ∀ j, 0 ≤ fracAbove s j ∧ fracAbove s j ≤ 1 := by
    intro j
    unfold fracAbove
    split_ifs <;> constructor <;> linarith
  have upd : ∀ (V W : Nodes n ℚ) (i : Fin (n + 1)) (v w : ℚ), (∀ j, V j ≤ W j) → v ≤ w →
      ∀ j, Function.update V i v j ≤ Function.update W i w j := by
    intro V W i v w h1 h2 j
    simp only [Function.update_apply]
    split
    · exact h2
    · exact h1 j
  induction i generalizing T U with
  | zero =>
    simp only [drawSweepFrom, addInlets_eq]
    refine upd _ _ _ _ _ hTU ?_
    have := mul_le_mul_of_nonneg_left (hat 0) hinc0
    have := hTU ⟨0, h⟩
    linarith
  | succ i ih =>
    simp only [drawSweepFrom, addInlets_eq]
    rw [hfa, ← fracAbove_pred]
    apply ih
    set w := inc * (1 - fracAbove s i) with hw
    have w0 : 0 ≤ w := mul_nonneg hinc0 (by linarith [(hab i).2])
    have w1 : w ≤ 1 := by nlinarith [(hab i).1, (hab i).2]
    have n1 : (⟨i, by omega⟩ : Fin (n + 1)) ≠ ⟨i + 1, h⟩ := fun e => by
      have := congrArg Fin.val e; simp at this
    have base := upd T U ⟨i + 1, h⟩ (T ⟨i + 1, h⟩ + inc * inletAt s (i + 1))
      (U ⟨i + 1, h⟩ + inc * inletAt s' (i + 1)) hTU
      (by have := mul_le_mul_of_nonneg_left (hat (i + 1)) hinc0; have := hTU ⟨i + 1, h⟩; linarith)
    have bi := base ⟨i, by omega⟩
    have bs := base ⟨i + 1, h⟩
    have m1 := mul_le_mul_of_nonneg_left bi w0
    refine upd _ _ _ _ _ (upd _ _ _ _ _ base (by linarith)) ?_
    simp only [Function.update_of_ne n1] at bi m1 ⊢
    nlinarith

theorem drawIncrement_order {t u : Tank n} (s s' : Inlets) (inc : ℚ) (hcfg : u.toTankCfg = t.toTankCfg)
    (hv : t.volume_L ≠ 0) (hcp : 0 < t.nodeCp) (hinc0 : 0 ≤ inc) (hinc1 : inc ≤ 1)
    (hhn : s.highNode ≤ n) (hln : s.lowNode ≤ n)
    (en : s'.highNode = s.highNode ∧ s'.lowNode = s.lowNode ∧ s'.highFrac = s.highFrac ∧ s'.lowFrac = s.lowFrac)
    (hh : 0 ≤ s.highFrac) (hl : 0 ≤ s.lowFrac) (hsum : s.highFrac + s.lowFrac = 1)
    (hhT : s.highT ≤ s'.highT) (hlT : s.lowT ≤ s'.lowT) (h : ∀ j, t.nodeTs j ≤ u.nodeTs j) :
    (drawIncrement t s inc).1 ≤ (drawIncrement u s' inc).1 ∧
    ∀ j, (drawIncrement t s inc).2.nodeTs j ≤ (drawIncrement u s' inc).2.nodeTs j := by
  have ecp : u.nodeCp = t.nodeCp := by rw [hcfg]
  have z : fracAbove s n = 0 := by
    unfold fracAbove
    rw [if_neg (by omega), if_neg (by omega)]; ring
  unfold drawIncrement
  simp only
  rw [ecp]
  refine ⟨mul_le_mul_of_nonneg_left (h _) (mul_nonneg hcp.le hinc0), fun j => ?_⟩
  refine mixInversions_order (t := ⟨t.toTankCfg, _, _, _⟩) (u := ⟨u.toTankCfg, _, _, _⟩) (by exact hv)
    (by exact hcfg) (fun j => ?_) j
  rw [← z]
  refine drawSweepFrom_order s s' inc hinc0 hinc1 en hh hl hsum hhT hlT n _ _ _ (fun j => ?_) j
  simp only [Function.update_apply]
  split
  · have e : ∀ x, t.nodeCp * inc * x / t.nodeCp = inc * x := fun x => by field_simp
    rw [e, e]
    nlinarith [h (Fin.last n)]
  · exact h j

theorem drawLoop_order (s s' : Inlets) (hhn : s.highNode ≤ n) (hln : s.lowNode ≤ n)
    (en : s'.highNode = s.highNode ∧ s'.lowNode = s.lowNode ∧ s'.highFrac = s.highFrac ∧ s'.lowFrac = s.lowFrac)
    (hh : 0 ≤ s.highFrac) (hl : 0 ≤ s.lowFrac) (hsum : s.highFrac + s.lowFrac = 1)
    (hhT : s.highT ≤ s'.highT) (hlT : s.lowT ≤ s'.lowT) (fuel : ℕ) :
    ∀ (rem e e' : ℚ) (t u : Tank n) (r r' : ℚ × Tank n), u.toTankCfg = t.toTankCfg → t.volume_L ≠ 0 → 0 < t.nodeCp →
      e ≤ e' → (∀ j, t.nodeTs j ≤ u.nodeTs j) →
      drawLoop s fuel rem e t = some r → drawLoop s' fuel rem e' u = some r' →
      r.1 ≤ r'.1 ∧ ∀ j, r.2.nodeTs j ≤ r'.2.nodeTs j := by
  induction fuel with
  | zero =>
    intro rem e e' t u r r' hcfg hv hcp he h h1 h2
    rw [drawLoop] at h1 h2
    split at h1
    · cases h1
    · rename_i hr
      rw [if_neg hr] at h2
      cases h1; cases h2
      exact ⟨he, h⟩
  | succ fuel ih =>
    intro rem e e' t u r r' hcfg hv hcp he h h1 h2
    rw [drawLoop] at h1 h2
    by_cases hr : rem > 0
    · rw [if_pos hr] at h1 h2
      simp only at h1 h2
      have hinc : 0 ≤ (if rem > 1 then 1 else rem) ∧ (if rem > 1 then 1 else rem) ≤ 1 := by
        split <;> constructor <;> linarith
      set inc := if rem > 1 then 1 else rem
      obtain ⟨a, b⟩ := drawIncrement_order s s' inc hcfg hv hcp hinc.1 hinc.2 hhn hln en hh hl hsum hhT hlT h
      have et : (drawIncrement t s inc).2.toTankCfg = t.toTankCfg := by rw [drawIncrement_eq]
      have eu : (drawIncrement u s' inc).2.toTankCfg = u.toTankCfg := by rw [drawIncrement_eq]
      exact ih _ _ _ _ _ _ _ (by rw [et, eu, hcfg]) (by rw [et]; exact hv) (by rw [et]; exact hcp) (by linarith) b h1 h2
    · rw [if_neg hr] at h1 h2
      cases h1; cases h2
      exact ⟨he, h⟩

theorem draw_order {t u : Tank n} (s s' : Inlets) (hhn : s.highNode ≤ n) (hln : s.lowNode ≤ n)
    (en : s'.highNode = s.highNode ∧ s'.lowNode = s.lowNode ∧ s'.highFrac = s.highFrac ∧ s'.lowFrac = s.lowFrac)
    (hh : 0 ≤ s.highFrac) (hl : 0 ≤ s.lowFrac) (hsum : s.highFrac + s.lowFrac = 1)
    (hhT : s.highT ≤ s'.highT) (hlT : s.lowT ≤ s'.lowT) (d : ℚ)
    (hcfg : u.toTankCfg = t.toTankCfg) (hv : t.volume_L ≠ 0) (hcp : 0 < t.nodeCp) (h : ∀ j, t.nodeTs j ≤ u.nodeTs j) :
    (draw t s d).1 ≤ (draw u s' d).1 ∧ ∀ j, (draw t s d).2.nodeTs j ≤ (draw u s' d).2.nodeTs j :=
  drawLoop_order s s' hhn hln en hh hl hsum hhT hlT ⌈d⌉₊ d 0 0 t u _ _ hcfg hv hcp le_rfl h
    (by simp [draw]) (by simp [draw])

theorem hxLoop_order (drawCp nodeCp eff : ℚ) (hd : 0 < drawCp) (hc : 0 < nodeCp)
    (he0 : 0 ≤ eff) (he1 : eff ≤ 1) (hcap : eff * drawCp ≤ nodeCp) (i m : ℕ)
    (h : i + m = n + 1) (o o' : ℚ) (T U : Nodes n ℚ) (ho : o ≤ o') (hT : ∀ j, T j ≤ U j) :
    (hxLoop drawCp nodeCp eff i m h (o, T)).1 ≤ (hxLoop drawCp nodeCp eff i m h (o', U)).1 ∧
    ∀ j, (hxLoop drawCp nodeCp eff i m h (o, T)).2 j ≤ (hxLoop drawCp nodeCp eff i m h (o', U)).2 j := by
  induction m generalizing i o o' T U with
  | zero => exact ⟨ho, hT⟩
  | succ m ih =>
    rw [hxLoop, hxLoop]
    have hi := hT ⟨i, by omega⟩
    apply ih
    · have e : ∀ x y : ℚ, y + eff * (drawCp * (x - y)) / drawCp = (1 - eff) * y + eff * x := fun x y => by
        field_simp; ring
      rw [e, e]
      nlinarith
    · intro j
      simp only [Function.update_apply]
      split
      · have hq : 0 ≤ eff * drawCp / nodeCp ∧ eff * drawCp / nodeCp ≤ 1 :=
          ⟨by positivity, by rw [div_le_one hc]; exact hcap⟩
        have e : ∀ x y : ℚ, x - eff * (drawCp * (x - y)) / nodeCp =
            (1 - eff * drawCp / nodeCp) * x + eff * drawCp / nodeCp * y := fun x y => by
          field_simp; ring
        rw [e, e]
        nlinarith
      · exact hT j

theorem mixNodes_order {T U T' U' : Nodes n ℚ} {bottom below : ℕ} (f : ℚ) (f0 : 0 ≤ f) (f1 : f ≤ 1)
    (h : ∀ j, T j ≤ U j) (h1 : mixNodes T bottom below f = .ok T') (h2 : mixNodes U bottom below f = .ok U') :
    ∀ j, T' j ≤ U' j := by
  unfold mixNodes at h1 h2
  split at h1
  · rename_i hb
    rw [if_pos hb] at h2
    cases h1; cases h2
    exact h
  · rename_i hb
    rw [if_neg hb] at h2
    split at h1
    · cases h1
    · rename_i hn
      rw [if_neg hn] at h2
      cases h1; cases h2
      intro j
      dsimp only
      have hpos : (0 : ℚ) ≤ (below : ℚ) - bottom := by
        have : (bottom : ℚ) ≤ below := by exact_mod_cast (by omega : bottom ≤ below)
        linarith
      have avg : mixAverage T bottom below ≤ mixAverage U bottom below := by
        unfold mixAverage
        apply div_le_div_of_nonneg_right _ hpos
        apply Finset.sum_le_sum
        intro j _
        split
        · exact h j
        · exact le_rfl
      split
      · nlinarith [h j]
      · exact h j

theorem drawWater_order {t u : Tank n} (hw : t.WellFormed) (hcfg : u.toTankCfg = t.toTankCfg) (d T1 U1 v2 T2 U2 : ℚ)
    (hd : 0 < d) (hv0 : 0 ≤ v2) (hv1 : v2 ≤ d)
    (he : t.hasHeatExchanger = true → (0 ≤ t.nodeHeatExchangerEffectiveness ∧ t.nodeHeatExchangerEffectiveness ≤ 1) ∧
      t.nodeHeatExchangerEffectiveness * d ≤ t.nodeVolume_L)
    (h1 : T1 ≤ U1) (h2 : T2 ≤ U2) (h : ∀ j, t.nodeTs j ≤ u.nodeTs j) :
    (t.drawWater d T1 v2 T2).outletT ≤ (u.drawWater d U1 v2 U2).outletT ∧
    ∀ j, (t.drawWater d T1 v2 T2).nodeTs j ≤ (u.drawWater d U1 v2 U2).nodeTs j := by
  have hc : (0 : ℚ) < cpWater * rhoWater := by norm_num [cpWater, rhoWater]
  have hdc : 0 < cpWater * rhoWater * d := mul_pos hc hd
  have hcp := hw.toConsistent.nodeCp_pos
  have eS : u.sortInlets d U1 v2 U2 = t.sortInlets d U1 v2 U2 := by
    unfold sortInlets; rw [hcfg]
  unfold drawWater
  rw [eS, hcfg]
  simp only
  split
  · rename_i hx
    obtain ⟨⟨e0, e1⟩, e2⟩ := he hx
    refine hxLoop_order _ _ _ hdc hcp e0 e1 ?_ 0 (n + 1) _ _ _ _ _ h1 h
    rw [hw.nodeCp]
    nlinarith
  · obtain ⟨f1, -, f3, f4, -⟩ := sortInlets_facts t d T1 v2 T2
    obtain ⟨f5, f6⟩ := f1 hw.inlet_le hw.inlet2_le
    obtain ⟨f7, f8⟩ := f4 (div_nonneg hv0 hd.le) (by rw [div_le_one hd]; exact hv1)
    have en : (t.sortInlets d U1 v2 U2).highNode = (t.sortInlets d T1 v2 T2).highNode ∧
        (t.sortInlets d U1 v2 U2).lowNode = (t.sortInlets d T1 v2 T2).lowNode ∧
        (t.sortInlets d U1 v2 U2).highFrac = (t.sortInlets d T1 v2 T2).highFrac ∧
        (t.sortInlets d U1 v2 U2).lowFrac = (t.sortInlets d T1 v2 T2).lowFrac := by
      unfold sortInlets
      split <;> exact ⟨rfl, rfl, rfl, rfl⟩
    have et : (t.sortInlets d T1 v2 T2).highT ≤ (t.sortInlets d U1 v2 U2).highT ∧
        (t.sortInlets d T1 v2 T2).lowT ≤ (t.sortInlets d U1 v2 U2).lowT := by
      unfold sortInlets
      split
      · exact ⟨h1, h2⟩
      · exact ⟨h2, h1⟩
    obtain ⟨a, b⟩ := draw_order (t := t) (u := u) _ _ f5 f6 en f7 f8 f3 et.1 et.2 (d / t.nodeVolume_L) hcfg
      hw.volume_pos.ne' hcp h
    exact ⟨div_le_div_of_nonneg_right a hdc.le, b⟩

theorem mixBottom_order {t u t' u' : Tank n} (hcfg : u.toTankCfg = t.toTankCfg) (h : ∀ j, t.nodeTs j ≤ u.nodeTs j)
    (h1 : t.mixBottom = .ok t') (h2 : u.mixBottom = .ok u') : ∀ j, t'.nodeTs j ≤ u'.nodeTs j := by
  have em : u.mixedBelowNode = t.mixedBelowNode := by unfold mixedBelowNode; rw [hcfg]; rfl
  unfold mixBottom at h1 h2
  rw [em, hcfg] at h2
  split at h1
  · rename_i hm
    rw [if_pos hm] at h2
    split at h1
    · split at h2
      · rename_i T hT _ U hU
        cases h1; cases h2
        exact mixNodes_order _ (by norm_num) (by norm_num) h hT hU
      · cases h2
    · cases h1
  · rename_i hm
    rw [if_neg hm] at h2
    cases h1; cases h2
    exact h

theorem conductNode_sub (tau : ℚ) (T U : Nodes n ℚ) (j : Fin (n + 1)) :
    conductNode tau U j - conductNode tau T j = conductNode tau (fun i => U i - T i) j := by
  unfold conductNode
  split_ifs <;> ring

theorem processLosses_order {t u t' u' : Tank n} (hw : t.Consistent) (hcfg : u.toTankCfg = t.toTankCfg)
    (hours seconds amb amb' : ℚ) (hs : 0 ≤ seconds) (hh : 0 ≤ hours)
    (hUA : 0 ≤ t.UA * t.fracAreaTop) (hside : 0 ≤ t.UA * t.fracAreaSide + t.fittingsUA)
    (hsmall : 2 * t.tau seconds +
      (2 * (t.UA * t.fracAreaTop) + (t.UA * t.fracAreaSide + t.fittingsUA) / (n + 1)) * hours / t.nodeCp ≤ 1)
    (ha : amb ≤ amb') (h : ∀ j, t.nodeTs j ≤ u.nodeTs j)
    (h1 : t.processLosses hours seconds amb = .ok t') (h2 : u.processLosses hours seconds amb' = .ok u') :
    ∀ j, t'.nodeTs j ≤ u'.nodeTs j := by
  have etau : u.tau seconds = t.tau seconds := by unfold tau; rw [hcfg]
  unfold processLosses at h1 h2
  rw [etau] at h2
  have hdc : u.doConduction = t.doConduction := by rw [hcfg]
  rw [hdc] at h2
  split at h1
  · cases h1
  rename_i hno
  rw [if_neg hno] at h2
  cases h1; cases h2
  refine mixInversions_order (t := ⟨t.toTankCfg, _, _, _⟩) (u := ⟨u.toTankCfg, _, _, _⟩) hw.volume_pos.ne' hcfg fun j => ?_
  dsimp only
  have hcp := hw.nodeCp_pos
  have hE : 0 ≤ t.endLossRate := hUA
  have hS : 0 ≤ t.sideLossRate := div_nonneg hside t.numNodes_pos.le
  have eE : u.endLossRate = t.endLossRate := by unfold endLossRate; rw [hcfg]
  have eS : u.sideLossRate = t.sideLossRate := by unfold sideLossRate; rw [hcfg]; rfl
  have ecp : u.nodeCp = t.nodeCp := by rw [hcfg]
  set c := ((if j = 0 then t.endLossRate else 0) + (if j = Fin.last n then t.endLossRate else 0) +
      t.sideLossRate) * hours / t.nodeCp with hcdef
  have hc0 : 0 ≤ c := by
    apply div_nonneg _ hcp.le
    apply mul_nonneg _ hh
    split_ifs <;> linarith
  have hc1 : c ≤ (2 * (t.UA * t.fracAreaTop) + (t.UA * t.fracAreaSide + t.fittingsUA) / (n + 1)) * hours / t.nodeCp := by
    apply div_le_div_of_nonneg_right _ hcp.le
    apply mul_le_mul_of_nonneg_right _ hh
    have : t.sideLossRate = (t.UA * t.fracAreaSide + t.fittingsUA) / (n + 1) := rfl
    rw [← this]
    have : t.endLossRate = t.UA * t.fracAreaTop := rfl
    rw [← this]
    split_ifs <;> linarith
  obtain ⟨H, hH⟩ : ∃ H, ∀ i, u.nodeTs i - t.nodeTs i ≤ H :=
    ⟨Finset.univ.sup' ⟨0, Finset.mem_univ _⟩ fun i => u.nodeTs i - t.nodeTs i,
      fun i => Finset.le_sup' (fun i => u.nodeTs i - t.nodeTs i) (Finset.mem_univ i)⟩
  have key : ∀ tau, 0 ≤ tau → tau ≤ t.tau seconds →
      0 ≤ u.nodeTs j - t.nodeTs j - c * (u.nodeTs j - t.nodeTs j - (amb' - amb)) +
        (conductNode tau u.nodeTs j - conductNode tau t.nodeTs j) := by
    intro tau h0 h1
    rw [conductNode_sub]
    exact (lossConduct_bounds tau 0 (max H (amb' - amb)) h0 (fun i => u.nodeTs i - t.nodeTs i) (amb' - amb) c hc0
      (by linarith) (fun i => ⟨by linarith [h i], (hH i).trans (le_max_left _ _)⟩)
      ⟨by linarith, le_max_right _ _⟩ j).1
  unfold nextNodes
  rw [afterLosses_apply, afterLosses_apply, eE, eS, ecp, etau, ← hcdef, hdc]
  by_cases hd : t.doConduction = true
  · simp only [hd, if_true]
    have := key _ (t.tau_nonneg seconds hs) le_rfl
    linarith
  · have := key 0 le_rfl (t.tau_nonneg seconds hs)
    have e : ∀ T : Nodes n ℚ, conductNode 0 T j = 0 := fun T => by
      unfold conductNode; split_ifs <;> simp
    rw [e, e] at this
    simp only [hd]
    simp only [Bool.false_eq_true, if_false]
    linarith

theorem updateNodes_order {t u t' u' : Tank n} (hw : t.WellFormed) (hcfg : u.toTankCfg = t.toTankCfg)
    (hours seconds d T1 U1 amb amb' v2 T2 U2 : ℚ) (hs : 0 ≤ seconds) (hh : 0 ≤ hours) (hd : 0 ≤ d) (hv : 0 ≤ v2)
    (he : t.hasHeatExchanger = true → (0 ≤ t.nodeHeatExchangerEffectiveness ∧ t.nodeHeatExchangerEffectiveness ≤ 1) ∧
      t.nodeHeatExchangerEffectiveness * d ≤ t.nodeVolume_L)
    (hUA : 0 ≤ t.UA * t.fracAreaTop) (hside : 0 ≤ t.UA * t.fracAreaSide + t.fittingsUA)
    (hsmall : 2 * t.tau seconds +
      (2 * (t.UA * t.fracAreaTop) + (t.UA * t.fracAreaSide + t.fittingsUA) / (n + 1)) * hours / t.nodeCp ≤ 1)
    (h1 : T1 ≤ U1) (h2 : v2 = 0 ∨ T2 ≤ U2) (ha : amb ≤ amb') (h : ∀ j, t.nodeTs j ≤ u.nodeTs j)
    (ht : t.updateNodes hours seconds d T1 amb v2 T2 = .ok t')
    (hu : u.updateNodes hours seconds d U1 amb' v2 U2 = .ok u') :
    (∀ j, t'.nodeTs j ≤ u'.nodeTs j) ∧ (0 < d → t'.outletT ≤ u'.outletT) := by
  unfold updateNodes at ht hu
  split at ht
  swap
  · cases ht
  split at hu
  swap
  · cases hu
  rename_i _ t1 hdt _ u1 hdu
  have wu : u.WellFormed := hw.of_cfg hcfg
  obtain ⟨c1, c2, a, b⟩ : t1.toTankCfg = t.toTankCfg ∧ u1.toTankCfg = t.toTankCfg ∧ (∀ j, t1.nodeTs j ≤ u1.nodeTs j) ∧
      (0 < d → t1.outletT ≤ u1.outletT) := by
    rcases eq_or_lt_of_le hd with rfl | hd
    · unfold processDraw at hdt hdu
      simp at hdt hdu
      subst hdt hdu
      exact ⟨rfl, hcfg, h, fun h => absurd h (lt_irrefl _)⟩
    · obtain ⟨U2', e2, hdu⟩ : ∃ x, T2 ≤ x ∧ u.processDraw d U1 v2 x = .ok u1 := by
        rcases h2 with rfl | h2
        · exact ⟨T2, le_rfl, by rw [processDraw_noSecond u d U1 T2 U2]; exact hdu⟩
        · exact ⟨U2, h2, hdu⟩
      obtain ⟨g1, g2⟩ := processDraw_ok t t1 _ _ _ _ hd hdt
      obtain ⟨-, g3⟩ := processDraw_ok u u1 _ _ _ _ hd hdu
      obtain ⟨a, b⟩ := drawWater_order hw hcfg d T1 U1 v2 T2 U2' hd hv g1 he h1 e2 h
      have w1 := (drawWater_same t hw d T1 v2 T2 hd).1
      have w2 := (drawWater_same u wu d U1 v2 U2' hd).1
      obtain ⟨⟨m1, -, m2⟩, -⟩ := mixBottom_ok _ _ g2
      obtain ⟨⟨m3, -, m4⟩, -⟩ := mixBottom_ok _ _ g3
      refine ⟨m1.trans w1, (m3.trans w2).trans hcfg, mixBottom_order (by rw [w1, w2, hcfg]) b g2 g3, fun _ => ?_⟩
      rw [m2, m4]
      exact a
  have wt1 := hw.of_cfg c1
  have wu1 := hw.of_cfg c2
  obtain ⟨-, o1, -⟩ := processLosses_ok t1 t' wt1.volume_pos.ne' _ _ _ ht
  obtain ⟨-, o2, -⟩ := processLosses_ok u1 u' wu1.volume_pos.ne' _ _ _ hu
  refine ⟨processLosses_order wt1.toConsistent (by rw [c1, c2]) hours seconds amb amb' hs hh ?_ ?_ ?_ ha a ht hu, ?_⟩
  · rw [c1]; exact hUA
  · rw [c1]; exact hside
  · have : t1.tau seconds = t.tau seconds := by unfold tau; rw [c1]
    rw [this, c1]; exact hsmall
  · rw [o1, o2]; exact b

end Tank

/-! ## Heating -/

theorem Tank.mixInversions_of_monotone {t : Tank n} (hv : t.volume_L ≠ 0) (h : Monotone t.nodeTs) :
    t.mixInversions.nodeTs = t.nodeTs := by
  by_cases hmix : t.doInversionMixing = true
  · refine ((C02_mixing_exact t hv hmix t.nodeTs).mp ⟨(stratified_iff_monotone _).mpr h, rfl, fun _ => le_rfl,
      fun _ _ _ _ => rfl⟩).symm
  · unfold Tank.mixInversions
    rw [if_neg hmix]

theorem shiftNodes_warmer (T : Nodes n ℚ) (hm : Monotone T) (o i : Fin (n + 1)) (f target : ℚ) (h0 : 0 ≤ f)
    (ht : T i ≤ target) (j : Fin (n + 1)) : T j ≤ shiftNodes T o i f target j := by
  unfold shiftNodes
  split_ifs with h hj
  · subst hj
    nlinarith
  · have h1 : j.val ≤ i.val := h.2
    have h2 : j.val ≠ i.val := fun hc => hj (Fin.ext hc)
    have : T j ≤ T ⟨j.val + 1, by omega⟩ := hm (by rw [Fin.le_def]; dsimp only; omega)
    nlinarith
  · exact le_rfl

theorem spPass_warmer {s : SourceCfg n k} {c : CondCfg} {externalT : ℚ} {a a' : ExtState n}
    (hcp : 0 < a.plant.tank.nodeCp) (hv : a.plant.tank.volume_L ≠ 0) (hm : Monotone a.plant.tank.nodeTs)
    (hrem : 0 ≤ a.remaining) (hfrac : ∀ f, s.fractToMeet a.plant = .ok f → 0 ≤ f)
    (hperf : ∀ perf, a.plant.tank.nodeTs s.externalOutlet < min c.maxSetpoint a.plant.setpoint →
      c.getPerformance s.airflowFreedom a.plant.setpoint externalT (a.plant.tank.nodeTs s.externalOutlet) =
        .ok perf → 0 < perf.outputPower_W)
    (htop : a.plant.tank.nodeTs s.externalInlet ≤ min c.maxSetpoint a.plant.setpoint)
    (h : spPass s c externalT a = .ok (some a')) :
    ∀ j, a.plant.tank.nodeTs j ≤ a'.plant.tank.nodeTs j := by
  unfold spPass at h
  rw [bind_ok_iff] at h
  obtain ⟨perf, hpf, h⟩ := h
  dsimp only at h
  by_cases hd : min c.maxSetpoint a.plant.setpoint - a.plant.tank.nodeTs s.externalOutlet ≤ 0
  · rw [if_pos hd] at h
    exact absurd h (by simp [pure, Except.pure])
  rw [if_neg hd, bind_ok_iff] at h
  obtain ⟨toff, hoff, h⟩ := h
  have hoff0 := hfrac _ hoff
  have hd' := not_le.mp hd
  have hpos := hperf perf (by linarith) hpf
  have hheat := mul_pos hcp hd'
  have hcap : 0 ≤ W_TO_KW perf.outputPower_W * (a.remaining * secPerMin) := by
    unfold W_TO_KW secPerMin; positivity
  set nodeHeat := a.plant.tank.nodeCp * (min c.maxSetpoint a.plant.setpoint - a.plant.tank.nodeTs s.externalOutlet)
  set capacity := W_TO_KW perf.outputPower_W * (a.remaining * secPerMin)
  have h := (ite_error_ok h).2
  rw [bind_ok_iff] at h
  obtain ⟨b, hb, h⟩ := h
  have e := (Option.some.inj (Except.ok.inj h)).symm
  subst e
  obtain ⟨-, -, -, -, e5, -⟩ := extFinishPass_spec _ _ _ _ _ _ _ _ _ _ hv hb
  intro j
  rw [e5]
  refine (congrFun (Tank.mixInversions_of_monotone hv hm) j).symm.le.trans (Tank.mixInversions_order hv (by rfl)
    (fun j => shiftNodes_warmer _ hm _ _ _ _ ?_ htop j) j)
  have hf0 : 0 ≤ capacity / nodeHeat := div_nonneg hcap hheat.le
  split_ifs <;> first | exact hoff0 | exact hf0 | norm_num

theorem spLoop_warmer (s : SourceCfg n k) (c : CondCfg) (externalT period : ℚ) (p : Plant n) (hi : WithTop ℚ)
    (hcp : 0 < p.tank.nodeCp) (hv : p.tank.volume_L ≠ 0) (hmix : p.tank.doInversionMixing = true)
    (hm : Monotone p.tank.nodeTs) (hhi : ∀ j, (p.tank.nodeTs j : WithTop ℚ) ≤ hi)
    (hset : (p.setpoint : WithTop ℚ) ≤ hi) (htop : hi ≤ (c.maxSetpoint : WithTop ℚ) ∧ hi ≤ (p.setpoint : WithTop ℚ))
    (hoi : s.externalOutlet ≤ s.externalInlet)
    (hperf : ∀ w perf, p.MayDraw c w →
      c.getPerformance s.airflowFreedom p.setpoint externalT w = .ok perf → 0 < perf.outputPower_W)
    (hmp : c.isMultipass = false) (hfrac : ∀ q f, s.fractToMeet q = .ok f → 0 ≤ f) :
    ∀ (fuel : ℕ) (a a' : ExtState n), ExtInv s c externalT period p a →
      (∀ j, p.tank.nodeTs j ≤ a.plant.tank.nodeTs j) → spLoop s c externalT fuel a = .ok a' →
      ∀ j, p.tank.nodeTs j ≤ a'.plant.tank.nodeTs j := by
  intro fuel
  induction fuel with
  | zero => intro a a' _ _ h; exact absurd h (by simp [spLoop])
  | succ fuel ih =>
    intro a a' inv hw h
    rw [spLoop, bind_ok_iff] at h
    obtain ⟨r, hr, h⟩ := h
    cases r with
    | none =>
      have : a = a' := by simpa [pure, Except.pure] using h
      rw [← this]; exact hw
    | some b =>
      have ib := spPass_inv s c externalT period p a b hcp hv hoi hperf hmp (fun f => hfrac _ f) inv hr
      have hsp : a.plant.setpoint = p.setpoint := inv.same.2.1
      obtain ⟨H, hH, hH1, hH2⟩ := withTop_within p.tank.nodeTs hhi p.setpoint hset
      have hup : ∀ j, a.plant.tank.nodeTs j ≤ min c.maxSetpoint a.plant.setpoint := by
        intro j
        obtain ⟨L, -, hL⟩ := Finset.exists_min_image Finset.univ p.tank.nodeTs ⟨0, Finset.mem_univ _⟩
        have := (inv.bounds hmp (p.tank.nodeTs L) H (fun j => ⟨hL j (Finset.mem_univ _), hH1 j⟩)
          ((min_le_right _ _).trans hH2) j).2
        have e1 := WithTop.coe_le_coe.mp (hH.trans htop.1)
        have e2 := WithTop.coe_le_coe.mp (hH.trans htop.2)
        rw [hsp]
        exact le_min (this.trans e1) (this.trans e2)
      have hb := spPass_warmer (by rw [inv.same.cp]; exact hcp) (by rw [inv.same.volume]; exact hv)
        (inv.mono hmix hm) inv.nonneg (fun f => hfrac _ f)
        (fun perf hlt hpf => by
          rw [hsp] at hpf hlt
          exact hperf _ perf ⟨exists_node_le _ _ fun lo hlo => inv.lower lo hlo _, fun _ => hlt⟩ hpf)
        (hup _) hr
      have hwb : ∀ j, p.tank.nodeTs j ≤ b.plant.tank.nodeTs j := fun j => (hw j).trans (hb j)
      simp only at h
      split_ifs at h with hb
      · rw [bind_ok_iff] at h
        obtain ⟨off, hoff, h⟩ := h
        cases off with
        | true =>
          have : b = a' := by simpa [pure, Except.pure] using h
          rw [← this]; exact hwb
        | false =>
          simp only [Bool.false_eq_true, if_false] at h
          exact ih b a' ib hwb h
      · have : b = a' := by simpa [pure, Except.pure] using h
        rw [← this]; exact hwb

theorem externalAddHeat_warmer (fuel : ℕ) (s : SourceCfg n k) (c : CondCfg) (p p' : Plant n)
    (st st' : SourceState) (amb minutes lo : ℚ) (hi : WithTop ℚ)
    (hoi : s.externalOutlet ≤ s.externalInlet) (hmp : c.isMultipass = false)
    (hsp : ∀ l ∈ s.shutOff, l.UpperLimit)
    (hout : ∀ water perf, lo ≤ water → (water : WithTop ℚ) ≤ hi →
      c.getPerformance s.airflowFreedom p.setpoint amb water = .ok perf → 0 < perf.outputPower_W)
    (ht : p.tank.Consistent) (hmix : p.tank.doInversionMixing = true)
    (hm : Monotone p.tank.nodeTs) (hlo : ∀ j, lo ≤ p.tank.nodeTs j)
    (hhi : ∀ j, (p.tank.nodeTs j : WithTop ℚ) ≤ hi) (hset : (p.setpoint : WithTop ℚ) ≤ hi)
    (htop : hi ≤ (c.maxSetpoint : WithTop ℚ) ∧ hi ≤ (p.setpoint : WithTop ℚ))
    (hmin : 0 ≤ minutes) (h : externalAddHeat fuel s c p st amb minutes = .ok (p', st')) :
    ∀ j, p.tank.nodeTs j ≤ p'.tank.nodeTs j := by
  unfold externalAddHeat at h
  rw [bind_ok_iff] at h
  obtain ⟨r, hr, h⟩ := h
  have h := (Except.ok.inj h).symm
  obtain ⟨rfl, rfl⟩ := Prod.mk.inj h
  have hpos : ∀ w perf, p.MayDraw c w → c.getPerformance s.airflowFreedom p.setpoint amb w = .ok perf →
      0 < perf.outputPower_W := by
    intro w perf hw hpf
    obtain ⟨⟨j, hj⟩, hw2⟩ := hw
    exact hout w perf ((hlo j).trans hj)
      ((WithTop.coe_le_coe.mpr ((hw2 hmp).le.trans (min_le_right _ _))).trans hset) hpf
  have hfr : ∀ q f, s.fractToMeet q = .ok f → 0 ≤ f := fun q f hf =>
    fractToMeetLoop_nonneg q _ 1 f (by norm_num)
      (fun l hl g hg => UpperLimit.fract_nonneg (hsp l hl) q hg) hf
  unfold addHeatExternal at hr
  simp only [hmp, Bool.false_eq_true, if_false] at hr
  rw [bind_ok_iff] at hr
  obtain ⟨a, ha, hr⟩ := hr
  have key := spLoop_warmer s c amb minutes p hi ht.nodeCp_pos ht.volume_pos.ne' hmix hm hhi hset htop hoi hpos hmp hfr
    fuel _ a (ExtInv.init s c amb minutes p hmin) (fun _ => le_rfl) ha
  rw [← Except.ok.inj hr]
  unfold extFinish
  dsimp only
  split <;> exact key

theorem addHeatKind_warmer (m : Libm) (hexp : ∀ x, 0 ≤ m.exp x) (fuel : ℕ) (s : SourceCfg n k)
    (p p' : Plant n) (st st' : SourceState) (x amb minutes lo : ℚ) (hi : WithTop ℚ)
    (hS : s.Sound x amb lo hi)
    (hx : ∀ c, s.kind = .condenser c → p.setpoint = x ∨ p.setpoint = c.maxOutT) (hn : n + 1 ≤ 10000) (ht : p.tank.Consistent)
    (hmix : p.tank.doInversionMixing = true) (hm : Monotone p.tank.nodeTs)
    (hlo : ∀ j, lo ≤ p.tank.nodeTs j) (hhi : ∀ j, (p.tank.nodeTs j : WithTop ℚ) ≤ hi)
    (hset : (p.setpoint : WithTop ℚ) ≤ hi) (hmin : 0 ≤ minutes)
    (htop : ∀ c, s.kind = .condenser c → c.configuration = .external → c.isMultipass = false ∧
      hi ≤ (c.maxSetpoint : WithTop ℚ) ∧ hi ≤ (p.setpoint : WithTop ℚ))
    (h : Sim.addHeatKind m fuel s p st amb minutes = .ok (p', st')) :
    ∀ j, p.tank.nodeTs j ≤ p'.tank.nodeTs j := by
  unfold Sim.addHeatKind at h
  split at h
  · rename_i c hk
    unfold condenserAddHeat at h
    by_cases hc : c.configuration = .external
    · rw [hc] at h
      obtain ⟨h1, h2, h3⟩ := hS.external c hk hc
      obtain ⟨t1, t2⟩ := htop c hk hc
      exact externalAddHeat_warmer fuel s c p p' st st' amb minutes lo hi h1 t1 (h3 t1)
        (hS.output c hk _ (hx c hk)) ht hmix hm hlo hhi hset t2 hmin h
    · have h : internalAddHeat m.exp s c p st amb minutes = .ok (p', st') := by
        revert h; cases hcc : c.configuration <;> simp_all
      obtain ⟨hd, hshr⟩ := hS.internal c hk hc
      obtain ⟨hm0, w, perf, hw, hpf⟩ := internalAddHeat_inv h
      obtain ⟨b, hb, hb1, -⟩ := withTop_within p.tank.nodeTs hhi p.setpoint hset
      obtain ⟨hw1, hw2⟩ := C22_weighted_average_range s.heatDist hd p.tank.nodeTs w lo b hw
        (fun j => ⟨hlo j, hb1 j⟩)
      have hpos := hS.output c hk _ (hx c hk) w perf hw1 ((WithTop.coe_le_coe.mpr hw2).trans hb) hpf
      obtain ⟨T', st2, cin, cout, he, hrun, -⟩ := internalAddHeat_spec m.exp hexp s c p st amb minutes
        (lt_of_le_of_ne hmin (Ne.symm hm0)) ht.nodeCp_pos hm hd hshr hn hc perf ⟨w, hw, hpf⟩ hpos
      rw [h] at he
      obtain ⟨rfl, rfl⟩ := Prod.mk.inj (Except.ok.inj he)
      exact hrun.warmer
  · rename_i power hk
    obtain ⟨hp, hd⟩ := hS.resistance power hk
    have hm0 := resistanceAddHeat_minutes h
    obtain ⟨T', st2, he, hrun, -⟩ := resistanceAddHeat_spec s power p st minutes hp
      (lt_of_le_of_ne hmin (Ne.symm hm0)) ht.nodeCp_pos hm hd
    rw [h] at he
    obtain ⟨rfl, rfl⟩ := Prod.mk.inj (Except.ok.inj he)
    exact hrun.warmer

theorem StepInv.warmer {m : Libm} (hexp : ∀ x, 0 ≤ m.exp x) {fuel : ℕ} {s0 s s' : Sim n k} {lo : ℚ}
    {hi : WithTop ℚ} {j : Fin k} {amb minutes : ℚ}
    (hS : (s0.cfg.src j).Sound s0.setpoint amb lo hi) (hn : n + 1 ≤ 10000) (ht : s0.tank.Consistent)
    (hmix : s0.tank.doInversionMixing = true) (hset : (s0.setpoint : WithTop ℚ) ≤ hi)
    (htop : s0.WarmsOnly hi)
    (inv : StepInv s0 s lo hi) (hmin : 0 ≤ minutes)
    (h : s.addHeatParent m fuel j amb minutes = .ok s') :
    ∀ i, s.tank.nodeTs i ≤ s'.tank.nodeTs i := by
  obtain ⟨q1, q2, q3, q4, q5⟩ := inv.same
  have ht' : s.tank.Consistent := by
    rw [q1]; exact ⟨ht.volume_pos, ht.nodeVolume, ht.nodeCp⟩
  have hmix' : s.tank.doInversionMixing = true := by rw [q1]; exact hmix
  have hsx : (s.setpoint : WithTop ℚ) ≤ hi := by rw [q2]; exact hset
  have key : ∀ (p : Plant n) (x : ℚ) (st' : SourceState), (x : WithTop ℚ) ≤ hi →
      (∀ c, (s.cfg.src j).kind = .condenser c → x = s0.setpoint ∨ x = c.maxOutT) →
      Sim.addHeatKind m fuel (s.cfg.src j) { s.toPlant with setpoint := x } (s.st j) amb minutes = .ok (p, st') →
      ∀ i, s.tank.nodeTs i ≤ p.tank.nodeTs i := by
    intro p x st' hx hxc hk
    rw [inv.cfg] at hk hxc
    refine addHeatKind_warmer m hexp fuel (s0.cfg.src j) { s.toPlant with setpoint := x } p
      (s.st j) st' s0.setpoint amb minutes lo hi hS hxc hn ht' hmix' inv.mono inv.lower inv.upper hx hmin ?_ hk
    intro c hc he
    obtain ⟨t1, t2, t3, t4⟩ := htop j c hc he
    refine ⟨t1, t2, ?_⟩
    rcases hxc c hc with e | e
    · change hi ≤ (x : WithTop ℚ); rw [e]; exact t3
    · change hi ≤ (x : WithTop ℚ); rw [e]; exact t4
  rcases addHeatParent_cases h with h | ⟨c, s2, hc, ha, hm, -, h2, ⟨-, e⟩ | ⟨-, e⟩⟩
  · obtain ⟨hk, -⟩ := addHeat_spec h
    exact key s'.toPlant s.setpoint (s'.st j) hsx (fun _ _ => .inl q2) hk
  all_goals
    obtain ⟨hk, -⟩ := addHeat_spec h2
    have := key s2.toPlant c.maxOutT (s2.st j) ((WithTop.coe_le_coe.mpr hm).trans hsx)
      (fun c' hc' => .inr (by rw [hc] at hc'; cases hc'; rfl)) hk
    rw [e]
    exact this

/-- **C97.** Heating never cools: where the heat sources can only warm the water, no part of the tank is colder after
the heating of a step than after its draw and losses, whichever sources run, and the water delivered is not affected. -/
theorem C97_heating_warms (m : Libm) (hexp : ∀ x, 0 ≤ m.exp x) (fuel : ℕ) (s s' : Sim n k) (u : StepInput) (lo : ℚ)
    (hi : WithTop ℚ) (ha : s.Accountable u lo hi) (hw : s.WarmsOnly hi) (h : Sim.runOneStep m fuel s u = .ok s') :
    ∃ t, s.DrawnTank u t ∧ (∀ j, t.nodeTs j ≤ s'.tank.nodeTs j) ∧ s'.tank.outletT = t.outletT := by
  obtain ⟨-, -, -, -, -, -, -, -, -, -, -, -, t, ht, ho⟩ := step_facts_drawn m hexp fuel s s' u lo hi ha h
  refine ⟨t, ht, ?_, ho⟩
  obtain ⟨-, s0, s1, s2, hs, h1, h2, rfl⟩ := runOneStep_ok h
  have e0 : s0.tank = t := Except.ok.inj (hs.drawn.symm.trans ht)
  subst e0
  have hwf := ha.wellFormed
  have hdrawn := hs.drawn
  unfold Sim.DrawnTank at hdrawn
  set t0 : Tank n := { s.tank with outletT := 0, standbyLosses_kJ := 0 } with ht0
  have hw0 : t0.WellFormed := hwf.of_cfg rfl
  obtain ⟨f1, f2⟩ := updateNodes_facts t0 _ hw0 _ _ _ _ _ _ _ ha.draw hdrawn
  have hcfg0 : s0.tank.toTankCfg = s.tank.toTankCfg := f1
  have hws : s0.tank.WellFormed := hwf.of_cfg hcfg0
  have hmono : Monotone s0.tank.nodeTs := f2 ha.mixing
  have hr := ha.range _ hs.drawn
  have hset : (s0.setpoint : WithTop ℚ) ≤ hi := by rw [hs.setpoint]; exact ha.setpoint
  have hstep : 0 ≤ s0.cfg.minutesPerStep := by rw [hs.cfg]; exact ha.step
  have hmix0 : s0.tank.doInversionMixing = true := by
    rw [hcfg0]; exact ha.mixing
  have hS : ∀ j, (s0.cfg.src j).Sound s0.setpoint (s.sourceAirT u) lo hi := fun j => by
    rw [hs.cfg, hs.setpoint]; exact ha.sound j
  have hw0' : s0.WarmsOnly hi := by
    unfold Sim.WarmsOnly
    rw [hs.cfg, hs.setpoint]
    exact hw
  have H0 := StepInv.heatInduction hexp fuel u.dr (s.sourceAirT u) s0 lo hi hS ha.nodes hws.toConsistent hmix0
    hset (by rw [hs.setpoint]; exact ha.absolute)
  have H : HeatInduction m fuel u.dr (s.sourceAirT u) s0.cfg (fun _ => True)
      (fun x => StepInv s0 x lo hi ∧ ∀ j, s0.tank.nodeTs j ≤ x.tank.nodeTs j)
      (fun x => 0 ≤ x ∧ x ≤ s0.cfg.minutesPerStep) := by
    refine ⟨fun x hx => H0.fixed x hx.1, fun x x' hc hx => ⟨H0.ctrl x x' hc hx.1, ?_⟩, ?_, ?_⟩
    · rw [hc.plant]; exact hx.2
    · intro x x' j minutes hA hx hq hl hh
      obtain ⟨a, b⟩ := H0.heat x x' j minutes hA hx.1 hq hl hh
      exact ⟨⟨a, fun i => (hx.2 i).trans (hx.1.warmer hexp (hS j) ha.nodes hws.toConsistent hmix0 hset hw0' hq.1 hh i)⟩, b⟩
    · exact fun x b minutes hx hq => H0.back x b minutes hx.1 hq
  obtain ⟨inv, hwarm⟩ := H.control ⟨StepInv.init s0 lo hi hmono (fun j => (hr j).1) (fun j => (hr j).2)
    (fun i => by rw [hs.st]; rfl) hstep, fun _ => le_rfl⟩ ⟨hstep, le_rfl⟩ h1
  obtain ⟨q1, q2, q3, q4, q5⟩ := inv.same
  have hc1 : s1.cfg = s.cfg := inv.cfg.trans hs.cfg
  obtain ⟨-, -, -, -, -, -, x7, -⟩ := extraStep_spec m hexp ha.nodes s1 s2 u.extraHeat_W ha.extra
    (by rw [q1]; exact hws.toConsistent.nodeCp_pos) inv.mono (by rw [hc1]; exact ha.step)
    (by rw [inv.rest]; exact hs.extra) h2
  obtain ⟨g1, -⟩ := finish_facts s2 u.tankAmbient u.dr
  intro j
  have htank : (((s2.trackLocation u.tankAmbient).settleOutputs).updateTimer u.dr).tank = s2.tank := by rw [g1]
  rw [htank]
  exact (hwarm j).trans (x7 j)

/-! ## Runs -/

theorem Sim.Tame.wellFormed {s : Sim n k} (h : s.Tame) : s.tank.WellFormed where
  toConsistent := h.toInsulated.consistent
  inlet_le := h.inlet
  inlet2_le := h.inlet2
  mixBelow_le := h.mixBelow

theorem Sim.Tame.of_cfg {s s' : Sim n k} (h : s.Tame) (h1 : s'.tank.toTankCfg = s.tank.toTankCfg)
    (h2 : s'.cfg = s.cfg) : s'.Tame where
  toInsulated := (h.toInsulated.of_cfg h1 h2).1
  inlet := by rw [h1]; exact h.inlet
  inlet2 := by rw [h1]; exact h.inlet2
  mixBelow := by rw [h1]; exact h.mixBelow
  effectiveness := by rw [h1]; exact h.effectiveness

theorem drawnTank_order {k' : ℕ} {s : Sim n k} {w : Sim n k'} {u v : RunInput} {t t' : Tank n} (hs : s.Tame)
    (hd : s.CanSupply u) (hsw : s.SameTank w) (huv : v.NotWarmer u) (h : w.NowhereWarmer s)
    (ht : (s.setInletT u.inletT).DrawnTank u.step t) (ht' : (w.setInletT v.inletT).DrawnTank v.step t') :
    (∀ j, t'.nodeTs j ≤ t.nodeTs j) ∧ (0 < u.draw_L → t'.outletT ≤ t.outletT) := by
  unfold Sim.DrawnTank at ht ht'
  have a1 : (s.setInletT u.inletT).tankAirT u.step = u.tankAmbient := by
    unfold Sim.tankAirT Sim.setInletT; simp only [hsw.room.1, Bool.false_eq_true, if_false]; rfl
  have a2 : (w.setInletT v.inletT).tankAirT v.step = v.tankAmbient := by
    unfold Sim.tankAirT Sim.setInletT; simp only [hsw.room.2, Bool.false_eq_true, if_false]; rfl
  rw [a1] at ht
  rw [a2] at ht'
  have ht : ({ s.tank with outletT := 0, standbyLosses_kJ := 0 } : Tank n).updateNodes (s.cfg.minutesPerStep / 60)
    (60 * s.cfg.minutesPerStep) u.draw_L u.inletT u.tankAmbient u.step.inletVol2_L u.step.inletT2 = .ok t := ht
  have ht' : ({ w.tank with outletT := 0, standbyLosses_kJ := 0 } : Tank n).updateNodes (w.cfg.minutesPerStep / 60)
    (60 * w.cfg.minutesPerStep) v.draw_L v.inletT v.tankAmbient v.step.inletVol2_L v.step.inletT2 = .ok t' := ht'
  rw [huv.draw, hsw.step] at ht'
  have hc := hsw.tank
  have hwf : Tank.WellFormed { w.tank with outletT := 0, standbyLosses_kJ := 0 } := hs.wellFormed.of_cfg hc
  have hm := hs.step
  refine Tank.updateNodes_order (t := { w.tank with outletT := 0, standbyLosses_kJ := 0 })
    (u := { s.tank with outletT := 0, standbyLosses_kJ := 0 }) hwf (by exact hc.symm) _ _ _ _ _ _ _ _ _ _ (by positivity) (by positivity) hd.draw
    (by exact le_rfl) (fun hx => ?_) (by dsimp only; rw [hc]; exact hs.ends) (by dsimp only; rw [hc]; exact hs.side) ?_
    huv.inlet (.inl rfl) huv.around h ht' ht
  · dsimp only at hx ⊢
    rw [hc] at hx ⊢
    exact ⟨hs.effectiveness hx, hd.exchanger hx⟩
  · have e : ∀ x, Tank.tau { w.tank with outletT := 0, standbyLosses_kJ := 0 } x = s.tank.tau x := fun x => by
      unfold Tank.tau; dsimp only; rw [hc]
    rw [e]
    dsimp only
    rw [hc]
    exact hs.gentle

/-- **C96.** Warmer stays warmer: of two tanks of the same kind that are left to their draws and losses, the one that
starts nowhere warmer, and is given water and air that are not warmer, ends the step nowhere warmer, and the water
drawn from it is not warmer. -/
theorem C96_step (m : Libm) (fuel : ℕ) {k' : ℕ} (s s' : Sim n k) (w w' : Sim n k') (u v : RunInput) (hs : s.Tame)
    (hsw : s.SameTank w) (hd : s.CanSupply u) (huv : v.NotWarmer u) (hu : u.LockedOut) (hv : v.LockedOut)
    (h : w.NowhereWarmer s) (h1 : Sim.runOneStepAt m fuel s u = .ok s') (h2 : Sim.runOneStepAt m fuel w v = .ok w') :
    w'.NowhereWarmer s' ∧ (0 < u.draw_L → w'.tank.outletT ≤ s'.tank.outletT) :=
  drawnTank_order hs hd hsw huv h (C29_nothing_heats m fuel _ _ _ hu.1 hu.2 rfl h1).1
    (C29_nothing_heats m fuel _ _ _ hv.1 hv.2 rfl h2).1

theorem lockedOut_settings {m : Libm} {fuel : ℕ} {s s' : Sim n k} {u : RunInput} (hs : s.tank.WellFormed)
    (hd : 0 ≤ u.draw_L) (hu : u.LockedOut)
    (h : Sim.runOneStepAt m fuel s u = .ok s') : s'.cfg = s.cfg ∧ s'.tank.toTankCfg = s.tank.toTankCfg := by
  have e := (C29_nothing_heats m fuel _ _ _ hu.1 hu.2 rfl h).1
  unfold Sim.DrawnTank at e
  obtain ⟨f1, -⟩ := updateNodes_facts { s.tank with outletT := 0, standbyLosses_kJ := 0 } _ (hs.of_cfg rfl)
    _ _ _ _ _ _ _ hd e
  exact ⟨(runOneStep_settings (u := u.step) rfl h).1, f1⟩

theorem Sim.SameTank.of_cfg {k' : ℕ} {s s' : Sim n k} {w w' : Sim n k'} (h : s.SameTank w)
    (h1 : s'.cfg = s.cfg ∧ s'.tank.toTankCfg = s.tank.toTankCfg)
    (h2 : w'.cfg = w.cfg ∧ w'.tank.toTankCfg = w.tank.toTankCfg) : s'.SameTank w' where
  tank := by rw [h1.2, h2.2]; exact h.tank
  step := by rw [h1.1, h2.1]; exact h.step
  room := by rw [h1.1, h2.1]; exact h.room

theorem Sim.CanSupply.of_cfg {s s' : Sim n k} {u : RunInput} (h : s.CanSupply u)
    (h1 : s'.tank.toTankCfg = s.tank.toTankCfg) : s'.CanSupply u :=
  ⟨h.draw, by rw [h1]; exact h.exchanger⟩

/-- Steps of two water heaters side by side, of which the second is locked out; `P` is what is known of the first. -/
theorem compare_run {m : Libm} {fuel : ℕ} {k' : ℕ} {s : ℕ → Sim n k} {w : ℕ → Sim n k'} {us vs : List RunInput}
    (P : Sim n k → Prop) (hs : (s 0).Tame) (hsw : (s 0).SameTank (w 0)) (hl : vs.length = us.length)
    (hd : ∀ u ∈ us, (s 0).CanSupply u) (huv : ∀ (t : ℕ) (h : t < us.length), (vs[t]).NotWarmer us[t])
    (hv : ∀ v ∈ vs, v.LockedOut) (h : (w 0).NowhereWarmer (s 0)) (h0 : P (s 0))
    (H : ∀ (x x' : Sim n k), ∀ u ∈ us, P x → x.cfg = (s 0).cfg → x.tank.toTankCfg = (s 0).tank.toTankCfg →
      Sim.runOneStepAt m fuel x u = .ok x' →
      P x' ∧ (x'.cfg = x.cfg ∧ x'.tank.toTankCfg = x.tank.toTankCfg) ∧
      ∃ t, (x.setInletT u.inletT).DrawnTank u.step t ∧ (∀ j, t.nodeTs j ≤ x'.tank.nodeTs j) ∧
        x'.tank.outletT = t.outletT)
    (h1 : Sim.StepsThrough m fuel us s) (h2 : Sim.StepsThrough m fuel vs w) :
    (∀ t ≤ us.length, (w t).NowhereWarmer (s t)) ∧
    ∀ (t : ℕ) (ht : t < us.length), 0 < us[t].draw_L → (w (t + 1)).tank.outletT ≤ (s (t + 1)).tank.outletT := by
  have one : ∀ (t : ℕ) (ht : t < us.length), P (s t) → (s t).cfg = (s 0).cfg →
      (s t).tank.toTankCfg = (s 0).tank.toTankCfg → (s t).SameTank (w t) → (w t).NowhereWarmer (s t) →
      P (s (t + 1)) ∧ (s (t + 1)).cfg = (s 0).cfg ∧ (s (t + 1)).tank.toTankCfg = (s 0).tank.toTankCfg ∧
      (s (t + 1)).SameTank (w (t + 1)) ∧ (w (t + 1)).NowhereWarmer (s (t + 1)) ∧
      (0 < us[t].draw_L → (w (t + 1)).tank.outletT ≤ (s (t + 1)).tank.outletT) := by
    intro t ht hp hc hT hST hN
    have hm := List.getElem_mem ht
    have e1 : Sim.runOneStepAt m fuel (s t) us[t] = .ok (s (t + 1)) := h1 ⟨t, ht⟩
    have e2 : Sim.runOneStepAt m fuel (w t) vs[t] = .ok (w (t + 1)) := h2 ⟨t, hl ▸ ht⟩
    obtain ⟨p1, ⟨p2, p3⟩, x, p4, p5, p6⟩ := H _ _ _ hm hp hc hT e1
    have hl' := hv vs[t] (List.getElem_mem _)
    have tame := hs.of_cfg hT hc
    have nw := huv t ht
    have sup := (hd _ hm).of_cfg hT
    obtain ⟨q1, q2⟩ := lockedOut_settings (tame.wellFormed.of_cfg hST.tank) (by rw [nw.draw]; exact sup.draw) hl' e2
    obtain ⟨r1, r2⟩ := drawnTank_order tame sup hST nw hN p4 (C29_nothing_heats m fuel _ _ _ hl'.1 hl'.2 rfl e2).1
    exact ⟨p1, p2.trans hc, p3.trans hT, hST.of_cfg ⟨p2, p3⟩ ⟨q1, q2⟩, fun j => (r1 j).trans (p5 j),
      fun hd => by rw [p6]; exact r2 hd⟩
  have key : ∀ t ≤ us.length, P (s t) ∧ (s t).cfg = (s 0).cfg ∧ (s t).tank.toTankCfg = (s 0).tank.toTankCfg ∧
      (s t).SameTank (w t) ∧ (w t).NowhereWarmer (s t) := by
    intro t
    induction t with
    | zero => exact fun _ => ⟨h0, rfl, rfl, hsw, h⟩
    | succ t ih =>
      intro ht
      obtain ⟨i1, i2, i3, i4, i5⟩ := ih (by omega)
      obtain ⟨a, b, c, d, e, -⟩ := one t (by omega) i1 i2 i3 i4 i5
      exact ⟨a, b, c, d, e⟩
  refine ⟨fun t ht => (key t ht).2.2.2.2, fun t ht => ?_⟩
  obtain ⟨i1, i2, i3, i4, i5⟩ := key t ht.le
  exact (one t ht i1 i2 i3 i4 i5).2.2.2.2.2

/-- **C96.** The same over any number of steps. -/
theorem C96_run (m : Libm) (fuel : ℕ) {k' : ℕ} (s : ℕ → Sim n k) (w : ℕ → Sim n k') (us vs : List RunInput)
    (hs : (s 0).Tame) (hsw : (s 0).SameTank (w 0)) (hl : vs.length = us.length) (hd : ∀ u ∈ us, (s 0).CanSupply u)
    (huv : ∀ (t : ℕ) (h : t < us.length), (vs[t]).NotWarmer us[t])
    (hu : ∀ u ∈ us, u.LockedOut) (hv : ∀ v ∈ vs, v.LockedOut) (h : (w 0).NowhereWarmer (s 0))
    (h1 : Sim.StepsThrough m fuel us s) (h2 : Sim.StepsThrough m fuel vs w) :
    (∀ t ≤ us.length, (w t).NowhereWarmer (s t)) ∧
    ∀ (t : ℕ) (ht : t < us.length), 0 < us[t].draw_L → (w (t + 1)).tank.outletT ≤ (s (t + 1)).tank.outletT :=
  compare_run (fun _ => True) hs hsw hl hd huv hv h trivial
    (fun _ x' u hm _ _ hT e => ⟨trivial,
      lockedOut_settings (hs.wellFormed.of_cfg hT) (hd u hm).draw (hu u hm) e,
      x'.tank, (C29_nothing_heats m fuel _ _ _ (hu u hm).1 (hu u hm).2 rfl e).1, fun _ => le_rfl, rfl⟩) h1 h2

/-- **C97.** Heating pays: a water heater whose heat sources can only warm the water is at all times at least as warm,
everywhere, as one with the same tank that starts nowhere warmer and is never heated, and the water it delivers in every
step is at least as warm, whatever its controls do. -/
theorem C97_run (m : Libm) (hexp : ∀ x, 0 ≤ m.exp x) (fuel : ℕ) {k' : ℕ} (s : ℕ → Sim n k) (w : ℕ → Sim n k')
    (us vs : List RunInput) (lo : ℚ) (hi : WithTop ℚ) (airLo airHi : ℚ) (hs : (s 0).WorksBetween lo hi airLo airHi)
    (hwarm : (s 0).WarmsOnly hi) (hsw : (s 0).SameTank (w 0)) (hl : vs.length = us.length)
    (hd : ∀ u ∈ us, (s 0).SuppliedBetween u.inletT u.step lo hi airLo airHi)
    (huv : ∀ (t : ℕ) (h : t < us.length), (vs[t]).NotWarmer us[t])
    (hv : ∀ v ∈ vs, v.LockedOut) (h : (w 0).NowhereWarmer (s 0))
    (h1 : Sim.StepsThrough m fuel us s) (h2 : Sim.StepsThrough m fuel vs w) :
    (∀ t ≤ us.length, (w t).NowhereWarmer (s t)) ∧
    ∀ (t : ℕ) (ht : t < us.length), 0 < us[t].draw_L → (w (t + 1)).tank.outletT ≤ (s (t + 1)).tank.outletT := by
  have tame : (s 0).Tame := ⟨⟨hs.volume, hs.nodeVolume, hs.nodeCp, hs.step, hs.ends, hs.side, hs.gentle, hsw.room.1⟩,
    hs.inlet, hs.inlet2, hs.mixBelow, hs.effectiveness⟩
  refine compare_run (fun x => x.WorksBetween lo hi airLo airHi ∧ x.WarmsOnly hi) tame hsw hl
    (fun u hu => ⟨(hd u hu).draw, (hd u hu).exchanger⟩) huv hv h ⟨hs, hwarm⟩ ?_ h1 h2
  rintro x x' u hu ⟨hb, hw⟩ hc hT e
  have hbx : (x.setInletT u.inletT).WorksBetween lo hi airLo airHi := ⟨hb.nodes, hb.volume, hb.nodeVolume,
    hb.nodeCp, hb.inlet, hb.inlet2, hb.mixBelow, hb.mixing, hb.effectiveness, hb.step, hb.absolute, hb.ends,
    hb.side, hb.gentle, hb.setpoint, hb.water, hb.room, hb.sound⟩
  have hux : (x.setInletT u.inletT).SuppliedBetween u.inletT u.step lo hi airLo airHi := (hd u hu).of_cfg hT hc
  obtain ⟨-, -, -, -, f1, f2, f3, -⟩ := step_facts m hexp fuel _ _ u.step lo hi (hbx.accountable hux) e
  refine ⟨⟨(C83_step m hexp fuel _ _ u.step lo hi airLo airHi hbx hux e).2.2.1, ?_⟩, ⟨f2, f1⟩,
    C97_heating_warms m hexp fuel _ _ u.step lo hi (hbx.accountable hux) (by exact hw) e⟩
  unfold Sim.WarmsOnly
  rw [f2, f3]
  exact hw

/-- The run of `sampleRun` with all heat sources locked out. -/
def lockedRun : List RunInput := sampleRun.map fun u => { u with dr := ⟨true, true, false, false⟩ }

/-- The states of a water heater over the steps of a run; it stays as it is once a step fails or the run is over. -/
def statesOf (us : List RunInput) (s0 : Sim 3 2) : ℕ → Sim 3 2
  | 0 => s0
  | t + 1 => match us[t]?.map (Sim.runOneStepAt sampleLibm 5 (statesOf us s0 t)) with
    | some (.ok s') => s'
    | _ => statesOf us s0 t

theorem statesOf_steps (us : List RunInput) (s0 : Sim 3 2)
    (h : ∀ t : Fin us.length, ∃ s', Sim.runOneStepAt sampleLibm 5 (statesOf us s0 t) us[t] = .ok s' ∧ True) :
    Sim.StepsThrough sampleLibm 5 us (statesOf us s0) := by
  intro t
  obtain ⟨s', e, -⟩ := h t
  have e2 : us[t.val]? = some us[t] := List.getElem?_eq_getElem t.isLt
  rw [statesOf, e2, Option.map_some, e]

/-- The sample system with colder water. -/
def colderSim : Sim 3 2 := { sampleSim with tank := { sampleSim.tank with nodeTs := ![15, 30, 40, 45] } }

theorem sampleSim_tame : sampleSim.Tame :=
  have b := sampleSim_between
  ⟨⟨b.volume, b.nodeVolume, b.nodeCp, b.step, b.ends, b.side, b.gentle, by decide +kernel⟩, b.inlet, b.inlet2,
    b.mixBelow, b.effectiveness⟩

theorem colderSim_sameTank : sampleSim.SameTank colderSim := ⟨rfl, rfl, by decide +kernel⟩

theorem colderSim_nowhereWarmer : colderSim.NowhereWarmer sampleSim := by
  unfold Sim.NowhereWarmer; decide +kernel

theorem lockedRun_lockedOut : ∀ u ∈ lockedRun, u.LockedOut := by
  intro u hu
  simp only [lockedRun, sampleRun, List.map_cons, List.map_nil, List.mem_cons, List.not_mem_nil, or_false] at hu
  rcases hu with rfl | rfl <;> exact ⟨rfl, rfl⟩

/-- The hypotheses of C96 are met: two sample systems, one with colder water, over two steps with draws and without
heat. -/
example : (statesOf lockedRun sampleSim 0).Tame ∧
    (statesOf lockedRun sampleSim 0).SameTank (statesOf lockedRun colderSim 0) ∧
    (∀ u ∈ lockedRun, sampleSim.CanSupply u) ∧
    (∀ (t : ℕ) (h : t < lockedRun.length), (lockedRun[t]).NotWarmer lockedRun[t]) ∧
    (∀ u ∈ lockedRun, u.LockedOut) ∧
    (statesOf lockedRun colderSim 0).NowhereWarmer (statesOf lockedRun sampleSim 0) ∧
    Sim.StepsThrough sampleLibm 5 lockedRun (statesOf lockedRun sampleSim) ∧
    Sim.StepsThrough sampleLibm 5 lockedRun (statesOf lockedRun colderSim) ∧
    (statesOf lockedRun colderSim 2).tank.outletT < (statesOf lockedRun sampleSim 2).tank.outletT := by
  refine ⟨sampleSim_tame, colderSim_sameTank, ?_, fun t h => ⟨rfl, le_rfl, le_rfl⟩, lockedRun_lockedOut,
    colderSim_nowhereWarmer, statesOf_steps _ _ (by decide +kernel), statesOf_steps _ _ (by decide +kernel),
    by decide +kernel⟩
  intro u hu
  simp only [lockedRun, sampleRun, List.map_cons, List.map_nil, List.mem_cons, List.not_mem_nil, or_false] at hu
  rcases hu with rfl | rfl <;> exact ⟨by norm_num, fun h => (by cases h)⟩

/-- The hypotheses of C97 are met: the sample system with heat, and without heat and with colder water. It matters:
unheated, the same system is colder in the end. -/
example : (statesOf sampleRun sampleSim 0).WorksBetween 5 ((55 : ℚ) : WithTop ℚ) 0 40 ∧
    (statesOf sampleRun sampleSim 0).WarmsOnly ((55 : ℚ) : WithTop ℚ) ∧
    (statesOf sampleRun sampleSim 0).SameTank (statesOf lockedRun colderSim 0) ∧
    (∀ u ∈ sampleRun, sampleSim.SuppliedBetween u.inletT u.step 5 ((55 : ℚ) : WithTop ℚ) 0 40) ∧
    (∀ (t : ℕ) (h : t < sampleRun.length), (lockedRun[t]'(by simpa [lockedRun] using h)).NotWarmer sampleRun[t]) ∧
    (∀ u ∈ lockedRun, u.LockedOut) ∧
    (statesOf lockedRun colderSim 0).NowhereWarmer (statesOf sampleRun sampleSim 0) ∧
    Sim.StepsThrough sampleLibm 5 sampleRun (statesOf sampleRun sampleSim) ∧
    Sim.StepsThrough sampleLibm 5 lockedRun (statesOf lockedRun colderSim) ∧
    (statesOf lockedRun sampleSim 2).tank.nodeTs 0 < (statesOf sampleRun sampleSim 2).tank.nodeTs 0 := by
  refine ⟨sampleSim_between, ?_, colderSim_sameTank, ?_, ?_, lockedRun_lockedOut, colderSim_nowhereWarmer,
    statesOf_steps _ _ (by decide +kernel), statesOf_steps _ _ (by decide +kernel), by decide +kernel⟩
  · intro i c hc he
    have : ∀ i, (match (sampleSim.cfg.src i).kind with
        | .condenser c => decide (c.configuration ≠ .external)
        | _ => true) = true := by decide +kernel
    have := this i
    rw [show (sampleSim.cfg.src i).kind = _ from hc] at this
    exact absurd he (of_decide_eq_true this)
  · intro u hu
    simp only [sampleRun, List.mem_cons, List.not_mem_nil, or_false] at hu
    rcases hu with rfl | rfl
    all_goals
      exact ⟨by norm_num [RunInput.step], le_refl 0, lies_coe.mpr (by norm_num), .inl rfl, fun h => (by cases h), rfl,
        lies_coe.mpr (by norm_num [RunInput.step]), fun _ => lies_coe.mpr (by norm_num [RunInput.step]),
        fun h => (by cases h)⟩
  · intro t h
    simp only [lockedRun, List.getElem_map]
    exact ⟨rfl, le_rfl, le_rfl⟩

/-- The condenser of the sample system outside the tank, heating in a single pass. -/
def outsideCond : CondCfg := { sampleCond with configuration := .external }

/-- The sample system with this heat pump, running. -/
def outsideSim : Sim 3 2 :=
  { sampleSim with
    cfg := { sampleSim.cfg with
      src := ![{ sampleSim.cfg.src 0 with
          kind := .condenser outsideCond, externalOutlet := 0, externalInlet := 3, shutOff := [] },
        sampleSim.cfg.src 1] }
    st := ![{ sampleSim.st 0 with isOn := true }, sampleSim.st 1]
    isHeating := true }

/-- A minute without draw in air at 20 °C, with no signal. -/
def signalFree : StepInput := { idleMinute with dr := ⟨false, false, false, false⟩ }

/-- The hypotheses of C97 are met by an external single-pass heat pump that heats to the setpoint. -/
example : outsideSim.Accountable signalFree 5 ((55 : ℚ) : WithTop ℚ) ∧ outsideSim.WarmsOnly ((55 : ℚ) : WithTop ℚ) ∧
    ∃ s', Sim.runOneStep sampleLibm 20 outsideSim signalFree = .ok s' ∧ 0 < (s'.st 0).energyOutput_kWh := by
  have b := sampleSim_between
  refine ⟨Sim.WorksBetween.accountable (s := outsideSim) (airLo := 0) (airHi := 40) ⟨b.nodes, b.volume, b.nodeVolume, b.nodeCp, b.inlet,
    b.inlet2, b.mixBelow, b.mixing, b.effectiveness, b.step, b.absolute, b.ends, b.side, b.gentle, b.setpoint, b.water,
    b.room, ?_⟩ ?_, ?_, by decide +kernel⟩
  · intro i air _
    match i with
    | 0 =>
      refine ⟨fun p hp => ?_, fun c hc hx => ?_, fun c hc hx => ?_, fun c hc _ _ w perf _ _ h => ?_⟩
      · exact absurd hp (by simp [outsideSim])
      · have : outsideCond = c := by simpa [outsideSim] using hc
        subst this
        exact absurd rfl hx
      · have : outsideCond = c := by simpa [outsideSim] using hc
        subst this
        exact ⟨by decide, fun h => (by cases h), fun _ l hl => (by cases hl)⟩
      · have : outsideCond = c := by simpa [outsideSim] using hc
        subst this
        have : perf = ⟨500, 1500, 3⟩ := by
          rw [← Except.ok.inj h]
          norm_num [outsideSim, outsideCond, sampleSim, sampleControlled, sampleSource, sampleCond, sampleElement]
        rw [this]; norm_num
    | 1 => exact b.sound 1 air ‹_›
  · exact ⟨by decide +kernel, by decide +kernel, lies_coe.mpr (by decide +kernel), .inl (by decide +kernel),
      fun h => (by cases h), rfl, lies_coe.mpr (by decide +kernel), fun _ => lies_coe.mpr (by decide +kernel),
      fun h => (by cases h)⟩
  · intro i c hc he
    match i with
    | 0 =>
      have : outsideCond = c := by simpa [outsideSim] using hc
      subst this
      exact ⟨rfl, WithTop.coe_le_coe.mpr (by decide +kernel), WithTop.coe_le_coe.mpr (by decide +kernel),
        WithTop.coe_le_coe.mpr (by decide +kernel)⟩
    | 1 => exact absurd hc (by simp [outsideSim, sampleSim, sampleElement])

/-- A multi-pass heat pump running with hot water on top of cold. -/
def churningSim : Sim 3 2 := { passingSim with tank := { passingSim.tank with nodeTs := ![20, 20, 20, 50] } }

/-- A single-pass heat pump running that heats to 50 °C at most, with water at 54 °C on top of cold. -/
def tepidSim : Sim 3 2 :=
  { passingSim with
    tank := { passingSim.tank with nodeTs := ![20, 20, 20, 54] }
    cfg := { passingSim.cfg with
      src := ![{ passingSim.cfg.src 0 with
          kind := match (passingSim.cfg.src 0).kind with
            | .condenser c => .condenser { c with isMultipass := false, maxSetpoint := 50 }
            | x => x },
        passingSim.cfg.src 1] } }

/-- **C97.** The condition is needed: a running heat pump can make the water on top, which is delivered next, colder than
no heat at all would. An external multi-pass heat pump does so by mixing, an external single-pass heat pump by returning
water colder than that on top. -/
theorem C97_heating_cools :
    (∃ s' w', Sim.runOneStep sampleLibm 20 churningSim signalFree = .ok s' ∧
      Sim.runOneStep sampleLibm 20 churningSim idleMinute = .ok w' ∧ 0 < (s'.st 0).energyOutput_kWh ∧
      s'.tank.nodeTs 3 < w'.tank.nodeTs 3 - 1) ∧
    (∃ s' w', Sim.runOneStep sampleLibm 20 tepidSim signalFree = .ok s' ∧
      Sim.runOneStep sampleLibm 20 tepidSim idleMinute = .ok w' ∧ 0 < (s'.st 0).energyOutput_kWh ∧
      s'.tank.nodeTs 3 < w'.tank.nodeTs 3 - 1 / 2) := by
  have c1 : ∃ s', Sim.runOneStep sampleLibm 20 churningSim signalFree =
      .ok s' ∧ 0 < (s'.st 0).energyOutput_kWh ∧ s'.tank.nodeTs 3 < 97 / 2 := by decide +kernel
  have c2 : ∃ w', Sim.runOneStep sampleLibm 20 churningSim idleMinute = .ok w' ∧ 99 / 2 < w'.tank.nodeTs 3 := by
    decide +kernel
  have d1 : ∃ s', Sim.runOneStep sampleLibm 20 tepidSim signalFree =
      .ok s' ∧ 0 < (s'.st 0).energyOutput_kWh ∧ s'.tank.nodeTs 3 < 267 / 5 + 1 / 20 := by decide +kernel
  have d2 : ∃ w', Sim.runOneStep sampleLibm 20 tepidSim idleMinute = .ok w' ∧ 54 - 1 / 20 < w'.tank.nodeTs 3 := by
    decide +kernel
  obtain ⟨a, a1, a2, a3⟩ := c1
  obtain ⟨b, b1, b2⟩ := c2
  obtain ⟨c, e1, e2, e3⟩ := d1
  obtain ⟨d, f1, f2⟩ := d2
  exact ⟨⟨a, b, a1, b1, a2, by linarith⟩, ⟨c, d, e1, f1, e2, by linarith⟩⟩

end HPWH
