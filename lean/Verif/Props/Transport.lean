import Verif.Props.TankUpdate
import Verif.Props.MixExact

/-! # C63: where the water of a draw goes -/

namespace HPWH

open Spec

variable {n : ℕ}

/-- The water entering during a draw: parts of the volume, entering node and temperature for the two
inlets. -/
structure Spec.Supply where
  part1 : ℚ
  node1 : ℕ
  temp1 : ℚ
  part2 : ℚ
  node2 : ℕ
  temp2 : ℚ

/-- The part of the water drawn that has entered below height `j`, and so rises past it. -/
def Spec.Supply.risingPast (w : Supply) (j : ℕ) : ℚ :=
  (if w.node1 < j then w.part1 else 0) + (if w.node2 < j then w.part2 else 0)

/-- Temperatures after drawing `x` node volumes (`x ≤ 1`): each node receives the inlet water entering
there and the water rising from the node below, and gives up as much water as rises past it, at its own
temperature. -/
def Spec.Supply.displace (w : Supply) (x : ℚ) (T : Nodes n ℚ) : Nodes n ℚ := fun i =>
  T i + x * ((if w.node1 = i.val then w.part1 * w.temp1 else 0) +
    (if w.node2 = i.val then w.part2 * w.temp2 else 0) +
    (if h : 0 < i.val then w.risingPast i.val * T ⟨i.val - 1, by omega⟩ else 0) -
    w.risingPast (i.val + 1) * T i)

/-- A draw of `v` node volumes, at most one at a time from the top, each followed by the removal of
inversions if `mix`; `q` is the sum of the temperatures drawn, weighted with the volumes. -/
inductive Spec.Drawn (w : Supply) (mix : Bool) : ℚ → Nodes n ℚ → Nodes n ℚ → ℚ → Prop
  | done (T) : Drawn w mix 0 T T 0
  | part (v : ℚ) (T T1 T' : Nodes n ℚ) (q : ℚ) (hv : 0 < v)
      (hmix : if mix then InversionsMixed (w.displace (min v 1) T) T1 else T1 = w.displace (min v 1) T)
      (rest : Drawn w mix (v - min v 1) T1 T' q) :
      Drawn w mix v T T' (min v 1 * T (Fin.last n) + q)

namespace Tank

/-- The supply of a draw of volume `d` of which `v2` comes through the second inlet. -/
def supply (t : Tank n) (d in1 v2 in2 : ℚ) : Supply :=
  ⟨1 - v2 / d, t.inletHeight, in1, v2 / d, t.inlet2Height, in2⟩

/-- One sweep from node `i` down, node by node. -/
theorem drawSweepFrom_apply (s : Inlets) (inc : ℚ) (i : ℕ) (h : i < n + 1) (T : Nodes n ℚ)
    (k : Fin (n + 1)) :
    drawSweepFrom s inc i h (fracAbove s i) T k =
      if i < k.val then T k
      else T k + inc * (inletAt s k.val +
        (if hk : 0 < k.val then (1 - fracAbove s (k.val - 1)) * T ⟨k.val - 1, by omega⟩ else 0) -
        (if k.val < i then (1 - fracAbove s k.val) * T k else 0)) := by
  induction i generalizing T with
  | zero =>
    simp only [drawSweepFrom, addInlets_eq]
    by_cases hk : k.val = 0
    · have : k = ⟨0, h⟩ := Fin.ext hk
      subst this
      simp
    · have : k ≠ ⟨0, h⟩ := fun hc => hk (congrArg Fin.val hc)
      rw [Function.update_of_ne this]
      simp [show 0 < k.val by omega]
  | succ i ih =>
    simp only [drawSweepFrom, addInlets_eq]
    rw [← fracAbove_pred, ih]
    have hne1 : (⟨i, by omega⟩ : Fin (n + 1)) ≠ ⟨i + 1, h⟩ := by
      intro hc
      have := congrArg Fin.val hc
      simp at this
    simp only [Function.update_self, Function.update_of_ne hne1]
    by_cases h1 : i + 1 < k.val
    · have a1 : k ≠ ⟨i + 1, h⟩ := fun hc => by have := congrArg Fin.val hc; simp at this; omega
      have a2 : k ≠ ⟨i, by omega⟩ := fun hc => by have := congrArg Fin.val hc; simp at this; omega
      simp only [h1, show i < k.val by omega, ↓reduceIte, Function.update_of_ne a1,
        Function.update_of_ne a2]
    · by_cases h2 : k.val = i + 1
      · have : k = ⟨i + 1, h⟩ := Fin.ext h2
        subst this
        simp only [show i < i + 1 by omega, ↓reduceIte, Function.update_of_ne (Ne.symm hne1),
          Function.update_self, lt_irrefl, Nat.add_sub_cancel, show 0 < i + 1 by omega, ↓reduceDIte]
        ring
      · have a1 : k ≠ ⟨i + 1, h⟩ := fun hc => h2 (congrArg Fin.val hc)
        by_cases h3 : k.val = i
        · have hii : i < n + 1 := by omega
          obtain rfl : k = ⟨i, hii⟩ := Fin.ext h3
          have hne2 : ∀ hi : i - 1 < n + 1, 0 < i → (⟨i - 1, hi⟩ : Fin (n + 1)) ≠ ⟨i, by omega⟩ :=
            fun hi h0 hc => by have := congrArg Fin.val hc; simp at this; omega
          have hne3 : ∀ hi : i - 1 < n + 1, (⟨i - 1, hi⟩ : Fin (n + 1)) ≠ ⟨i + 1, h⟩ :=
            fun hi hc => by have := congrArg Fin.val hc; simp only at this; omega
          simp only [lt_irrefl, ↓reduceIte, Function.update_self, show ¬ i + 1 < i by omega,
            show i < i + 1 by omega]
          by_cases h0 : 0 < i
          · simp only [h0, ↓reduceDIte, Function.update_of_ne (hne2 _ h0),
              Function.update_of_ne (hne3 _)]
            ring
          · simp only [h0, ↓reduceDIte]
            ring
        · have a2 : k ≠ ⟨i, by omega⟩ := fun hc => h3 (congrArg Fin.val hc)
          have b1 : ∀ hk : k.val - 1 < n + 1, (⟨k.val - 1, hk⟩ : Fin (n + 1)) ≠ ⟨i + 1, h⟩ :=
            fun hk hc => by have := congrArg Fin.val hc; simp at this; omega
          have b2 : ∀ hk : k.val - 1 < n + 1, (⟨k.val - 1, hk⟩ : Fin (n + 1)) ≠ ⟨i, by omega⟩ :=
            fun hk hc => by have := congrArg Fin.val hc; simp at this; omega
          simp only [show ¬ i < k.val by omega, show ¬ i + 1 < k.val by omega, ↓reduceIte,
            Function.update_of_ne a1, Function.update_of_ne a2, show k.val < i by omega,
            show k.val < i + 1 by omega, Function.update_of_ne (b1 _), Function.update_of_ne (b2 _)]

/-- The sorted inlets say the same as the supply. -/
theorem sortInlets_supply (t : Tank n) (d in1 v2 in2 : ℚ) (i : ℕ) :
    inletAt (t.sortInlets d in1 v2 in2) i =
      (if (t.supply d in1 v2 in2).node1 = i then
        (t.supply d in1 v2 in2).part1 * (t.supply d in1 v2 in2).temp1 else 0) +
      (if (t.supply d in1 v2 in2).node2 = i then
        (t.supply d in1 v2 in2).part2 * (t.supply d in1 v2 in2).temp2 else 0) ∧
    1 - fracAbove (t.sortInlets d in1 v2 in2) i = (t.supply d in1 v2 in2).risingPast (i + 1) := by
  unfold inletAt fracAbove Supply.risingPast supply sortInlets
  by_cases hs : t.inletHeight > t.inlet2Height
  · simp only [hs, ↓reduceIte, @eq_comm ℕ i]
    refine ⟨trivial, ?_⟩
    split_ifs <;> first | (exfalso; omega) | ring
  · simp only [hs, ↓reduceIte, @eq_comm ℕ i]
    refine ⟨by ring, ?_⟩
    split_ifs <;> first | (exfalso; omega) | ring

theorem drawIncrement_displace (t : Tank n) (d in1 v2 in2 inc : ℚ) (hcp : t.nodeCp ≠ 0)
    (h1 : t.inletHeight ≤ n) (h2 : t.inlet2Height ≤ n) :
    (drawIncrement t (t.sortInlets d in1 v2 in2) inc).2 =
      ({ t with nodeTs := (t.supply d in1 v2 in2).displace inc t.nodeTs } : Tank n).mixInversions := by
  unfold drawIncrement
  dsimp only
  congr 2
  have hf : fracAbove (t.sortInlets d in1 v2 in2) n = 0 := by
    have := (sortInlets_facts t d in1 v2 in2).1 h1 h2
    unfold fracAbove
    simp [show ¬ n < (t.sortInlets d in1 v2 in2).highNode by omega,
      show ¬ n < (t.sortInlets d in1 v2 in2).lowNode by omega]
  have hq : t.nodeCp * inc * t.nodeTs (Fin.last n) / t.nodeCp = inc * t.nodeTs (Fin.last n) := by
    field_simp
  rw [hq]
  funext k
  have := drawSweepFrom_apply (t.sortInlets d in1 v2 in2) inc n (by omega)
    (Function.update t.nodeTs (Fin.last n) (t.nodeTs (Fin.last n) - inc * t.nodeTs (Fin.last n))) k
  rw [hf] at this
  rw [this, if_neg (by omega)]
  unfold Supply.displace
  obtain ⟨e1, e2⟩ := sortInlets_supply t d in1 v2 in2 k.val
  rw [e1, e2]
  have hprev : ∀ hk : 0 < k.val, ∀ hk1 : k.val - 1 < n + 1, Function.update t.nodeTs (Fin.last n)
      (t.nodeTs (Fin.last n) - inc * t.nodeTs (Fin.last n)) ⟨k.val - 1, hk1⟩ =
      t.nodeTs ⟨k.val - 1, hk1⟩ := fun hk hk1 => by
    refine Function.update_of_ne (fun hc => ?_) _ _
    have := congrArg Fin.val hc
    simp at this
    omega
  have hin : (if hk : 0 < k.val then (1 - fracAbove (t.sortInlets d in1 v2 in2) (k.val - 1)) *
      Function.update t.nodeTs (Fin.last n) (t.nodeTs (Fin.last n) - inc * t.nodeTs (Fin.last n))
        ⟨k.val - 1, by omega⟩ else 0) =
      if hk : 0 < k.val then (t.supply d in1 v2 in2).risingPast k.val * t.nodeTs ⟨k.val - 1, by omega⟩
      else 0 := by
    by_cases hk : 0 < k.val
    · simp only [hk, ↓reduceDIte]
      rw [hprev hk, (sortInlets_supply t d in1 v2 in2 (k.val - 1)).2,
        show k.val - 1 + 1 = k.val by omega]
    · simp only [hk, ↓reduceDIte]
  rw [hin]
  by_cases hk : k = Fin.last n
  · subst hk
    have e3 : (t.supply d in1 v2 in2).risingPast ((Fin.last n).val + 1) = 1 := by
      simp only [Supply.risingPast, supply, Fin.val_last]
      simp [show t.inletHeight < n + 1 by omega, show t.inlet2Height < n + 1 by omega]
    rw [e3]
    simp only [Function.update_self, Fin.val_last, lt_irrefl, ↓reduceIte]
    ring
  · have hlt : k.val < n := by
      have := k.isLt
      have : k.val ≠ n := fun h => hk (Fin.ext h)
      omega
    rw [Function.update_of_ne hk, if_pos hlt]

theorem supply_cfg {t t' : Tank n} (h : t'.toTankCfg = t.toTankCfg) (d in1 v2 in2 : ℚ) :
    t'.supply d in1 v2 in2 = t.supply d in1 v2 in2 ∧
    t'.sortInlets d in1 v2 in2 = t.sortInlets d in1 v2 in2 := by
  unfold supply sortInlets
  rw [h]
  exact ⟨rfl, rfl⟩

theorem drawLoop_drawn (t : Tank n) (d in1 v2 in2 : ℚ) (hw : t.WellFormed) (fuel : ℕ) (rem e : ℚ)
    (t' : Tank n) (hc : t'.toTankCfg = t.toTankCfg) (r : ℚ × Tank n) (h0 : 0 ≤ rem)
    (h : drawLoop (t.sortInlets d in1 v2 in2) fuel rem e t' = some r) :
    ∃ q, Drawn (t.supply d in1 v2 in2) t.doInversionMixing rem t'.nodeTs r.2.nodeTs q ∧
      r.1 = e + t.nodeCp * q := by
  induction fuel generalizing rem e t' with
  | zero =>
    rw [drawLoop] at h
    by_cases hr : rem > 0
    · simp [hr] at h
    · obtain rfl : rem = 0 := le_antisymm (not_lt.mp hr) h0
      simp at h
      subst h
      exact ⟨0, .done _, by ring⟩
  | succ fuel ih =>
    rw [drawLoop] at h
    by_cases hr : rem > 0
    · simp only [hr, if_true] at h
      have hmin : (if rem > 1 then 1 else rem) = min rem 1 := by
        split_ifs with h1
        · exact (min_eq_right h1.le).symm
        · exact (min_eq_left (not_lt.mp h1)).symm
      rw [hmin] at h
      have hw' : t'.WellFormed := hw.of_cfg hc
      obtain ⟨c1, c2⟩ := supply_cfg hc d in1 v2 in2
      have hd := drawIncrement_displace t' d in1 v2 in2 (min rem 1)
        hw'.toConsistent.nodeCp_pos.ne' hw'.inlet_le hw'.inlet2_le
      rw [c1, c2] at hd
      have hc2 : (drawIncrement t' (t.sortInlets d in1 v2 in2) (min rem 1)).2.toTankCfg =
          t.toTankCfg := by
        rw [drawIncrement_eq]; exact hc
      obtain ⟨q, hq, hr1⟩ := ih (rem - min rem 1) _ _ hc2 (by
        have := min_le_left rem 1
        linarith) h
      refine ⟨_, .part rem _ _ _ q hr ?_ hq, ?_⟩
      · rw [hd]
        have hmixc : t'.doInversionMixing = t.doInversionMixing := by rw [hc]
        have hvol := hw'.volume_pos.ne'
        by_cases hm : t.doInversionMixing = true
        · rw [if_pos hm]
          exact (C02_mixing_exact
            { t' with nodeTs := (t.supply d in1 v2 in2).displace (min rem 1) t'.nodeTs } hvol
            (hmixc.trans hm) _).mpr rfl
        · rw [if_neg hm]
          have : t'.doInversionMixing = false := by rw [hmixc]; simpa using hm
          rw [(C02_mixing_idempotent
            { t' with nodeTs := (t.supply d in1 v2 in2).displace (min rem 1) t'.nodeTs }).2.2 this]
      · rw [hr1]
        have : t'.nodeCp = t.nodeCp := by rw [hc]
        simp only [drawIncrement, this]
        ring
    · obtain rfl : rem = 0 := le_antisymm (not_lt.mp hr) h0
      simp at h
      subst h
      exact ⟨0, .done _, by ring⟩

end Tank

/-- C63: a draw (without heat exchanger) displaces water as specified: the first inlet supplies what the
second does not, each at its node; the reported outlet temperature is the average temperature of the
water drawn from the top; afterwards the bottom part of the tank is mixed by a third if so configured. -/
theorem C63_draw_transport (t t' : Tank n) (hw : t.WellFormed) (hx : t.hasHeatExchanger = false)
    (drawVolume inletT inletVol2 inletT2 : ℚ) (hd : 0 < drawVolume)
    (h : t.processDraw drawVolume inletT inletVol2 inletT2 = .ok t') :
    ∃ T1 q, Drawn ⟨1 - inletVol2 / drawVolume, t.inletHeight, inletT,
        inletVol2 / drawVolume, t.inlet2Height, inletT2⟩ t.doInversionMixing
        (drawVolume / (t.volume_L / (n + 1))) t.nodeTs T1 q ∧
      t'.outletT = q / (drawVolume / (t.volume_L / (n + 1))) ∧
      (t.mixesOnDraw = false → t'.nodeTs = T1) ∧
      (t.mixesOnDraw = true → ∃ b : ℕ, (b : ℤ) = max 0 ⌊(n + 1) * t.mixBelowFractionOnDraw⌋ ∧
        b ≤ n + 1 ∧ ∀ k, t'.nodeTs k = if k.val < b then
          T1 k + 1 / 3 * ((∑ j, if j.val < b then T1 j else 0) / b - T1 k) else T1 k) := by
  obtain ⟨_, hmix⟩ := Tank.processDraw_ok t t' _ _ _ _ hd h
  have hnv := hw.toConsistent.nodeVolume_pos
  have hnv' : t.volume_L / (n + 1) = t.nodeVolume_L := by
    rw [hw.nodeVolume]; rfl
  rw [hnv']
  have hcp := hw.toConsistent.nodeCp_pos
  have hdraw : (t.drawWater drawVolume inletT inletVol2 inletT2) =
      { (t.draw (t.sortInlets drawVolume inletT inletVol2 inletT2) (drawVolume / t.nodeVolume_L)).2 with
        outletT := (t.draw (t.sortInlets drawVolume inletT inletVol2 inletT2)
          (drawVolume / t.nodeVolume_L)).1 / (cpWater * rhoWater * drawVolume) } := by
    unfold Tank.drawWater
    simp [hx]
  obtain ⟨q, hq, hr⟩ := Tank.drawLoop_drawn t drawVolume inletT inletVol2 inletT2 hw
    ⌈drawVolume / t.nodeVolume_L⌉₊ (drawVolume / t.nodeVolume_L) 0 t rfl
    (t.draw (t.sortInlets drawVolume inletT inletVol2 inletT2) (drawVolume / t.nodeVolume_L))
    (by positivity) (by simp [Tank.draw])
  have hcfg := (Tank.drawWater_same t hw drawVolume inletT inletVol2 inletT2 hd).1
  have hnodes : (t.drawWater drawVolume inletT inletVol2 inletT2).nodeTs =
    (t.draw (t.sortInlets drawVolume inletT inletVol2 inletT2)
      (drawVolume / t.nodeVolume_L)).2.nodeTs := by rw [hdraw]
  refine ⟨_, q, hq, ?_, ?_, ?_⟩
  · rw [(Tank.mixBottom_ok _ _ hmix).1.2.2, hdraw]
    dsimp only
    rw [hr, hw.toConsistent.drawCp_eq]
    field_simp
    ring
  · intro hmd
    unfold Tank.mixBottom at hmix
    rw [hcfg] at hmix
    simp only [hmd, Bool.false_eq_true, ↓reduceIte, Except.ok.injEq] at hmix
    rw [← hmix, hnodes]
  · intro hmd
    unfold Tank.mixBottom at hmix
    have hbelow : (t.drawWater drawVolume inletT inletVol2 inletT2).mixedBelowNode =
        (⌊((n : ℚ) + 1) * t.mixBelowFractionOnDraw⌋).toNat := by
      unfold Tank.mixedBelowNode Tank.numNodes
      rw [hcfg]
    rw [hcfg, hbelow, hnodes] at hmix
    simp only [hmd, ↓reduceIte] at hmix
    refine ⟨(⌊((n : ℚ) + 1) * t.mixBelowFractionOnDraw⌋).toNat, by omega, ?_⟩
    generalize (⌊((n : ℚ) + 1) * t.mixBelowFractionOnDraw⌋).toNat = b at hmix
    unfold Tank.mixNodes at hmix
    by_cases hb0 : b ≤ 0
    · simp only [hb0, ↓reduceIte, Except.ok.injEq] at hmix
      refine ⟨by omega, fun k => ?_⟩
      rw [← hmix, if_neg (by omega)]
    · by_cases hb1 : n + 1 < b
      · simp only [hb0, hb1, ↓reduceIte] at hmix
        cases hmix
      · simp only [hb0, hb1, ↓reduceIte, Except.ok.injEq] at hmix
        refine ⟨by omega, fun k => ?_⟩
        rw [← hmix]
        simp only [Nat.zero_le, true_and, Nat.cast_zero, sub_zero, Tank.mixAverage]

/-- C63: drawing up to one node volume through a single inlet at the bottom, from a stratified tank
with colder inlet water: every node is replaced in part by the one below, the bottom by inlet water. -/
theorem C63_plug_flow (t t' : Tank n) (hw : t.WellFormed) (hx : t.hasHeatExchanger = false)
    (hm : t.mixesOnDraw = false) (hin : t.inletHeight = 0) (hs : Stratified t.nodeTs)
    (drawVolume inletT inletT2 x : ℚ) (hcold : inletT ≤ t.nodeTs 0) (hd : 0 < drawVolume)
    (hxd : x = drawVolume / (t.volume_L / (n + 1))) (hx1 : x ≤ 1)
    (h : t.processDraw drawVolume inletT 0 inletT2 = .ok t') :
    t'.outletT = t.nodeTs (Fin.last n) ∧
    t'.nodeTs 0 = (1 - x) * t.nodeTs 0 + x * inletT ∧
    ∀ i j : Fin (n + 1), j.val = i.val + 1 →
      t'.nodeTs j = (1 - x) * t.nodeTs j + x * t.nodeTs i := by
  obtain ⟨T1, q, hdr, hout, hT, -⟩ := C63_draw_transport t t' hw hx drawVolume inletT 0 inletT2 hd h
  rw [hT hm]
  rw [← hxd] at hdr hout
  have hx0 : 0 < x := by
    rw [hxd]
    have := hw.volume_pos
    positivity
  obtain ⟨w, hwd⟩ : ∃ w : Supply, w = ⟨1 - 0 / drawVolume, t.inletHeight, inletT,
    0 / drawVolume, t.inlet2Height, inletT2⟩ := ⟨_, rfl⟩
  rw [← hwd] at hdr
  have hrise : ∀ j, 0 < j → w.risingPast j = 1 := fun j hj => by
    rw [hwd]; simp [Supply.risingPast, hin, hj]
  have h0 : w.displace x t.nodeTs 0 = (1 - x) * t.nodeTs 0 + x * inletT := by
    simp only [Supply.displace, hrise _ (Nat.succ_pos _)]
    rw [hwd]
    simp [hin]
    ring
  have hj : ∀ i j : Fin (n + 1), j.val = i.val + 1 →
      w.displace x t.nodeTs j = (1 - x) * t.nodeTs j + x * t.nodeTs i := fun i j hij => by
    have hpos : 0 < j.val := by omega
    have e : (⟨j.val - 1, by omega⟩ : Fin (n + 1)) = i := Fin.ext (by simp [hij])
    simp only [Supply.displace, hrise _ (Nat.succ_pos _), hpos, ↓reduceDIte, e, hrise _ hpos]
    rw [hwd]
    simp [hin, show ¬ 0 = j.val by omega]
    ring
  have hstrat : Stratified (w.displace x t.nodeTs) := by
    rw [stratified_iff_monotone, Fin.monotone_iff_le_succ]
    intro i
    rw [hj i.castSucc i.succ (by simp)]
    by_cases hi : i.val = 0
    · have e : i.castSucc = 0 := Fin.ext (by simp [hi])
      rw [e, h0]
      have := hs 0 i.succ (by rw [Fin.lt_def]; simp)
      nlinarith
    · rw [hj ⟨i.val - 1, by omega⟩ i.castSucc (by simp; omega)]
      have a := hs i.castSucc i.succ (by rw [Fin.lt_def]; simp)
      have b := hs ⟨i.val - 1, by omega⟩ i.castSucc (by rw [Fin.lt_def]; simp; omega)
      nlinarith
  have hself : InversionsMixed (w.displace x t.nodeTs) (w.displace x t.nodeTs) :=
    ⟨hstrat, rfl, fun _ => le_rfl, fun _ _ _ _ => rfl⟩
  cases hdr with
  | done => exact absurd hx0 (lt_irrefl _)
  | part v T T2 T' q' hv hmix rest =>
    rw [min_eq_left hx1] at hmix rest hout
    rw [sub_self] at rest
    have hT2 : T2 = w.displace x t.nodeTs := by
      by_cases hmx : t.doInversionMixing = true
      · rw [if_pos hmx] at hmix
        exact ((MixExact.mixed_iff _ _).mp hmix).unique ((MixExact.mixed_iff _ _).mp hself)
      · rwa [if_neg hmx] at hmix
    cases rest with
    | part _ _ _ _ _ hv0 => exact absurd hv0 (lt_irrefl _)
    | done =>
      rw [hT2]
      refine ⟨?_, h0, hj⟩
      rw [hout]
      field_simp
      ring

example : ∃ t', ({ sampleTank with nodeTs := ![20, 30, 40, 50], mixesOnDraw := false } : Tank 3).processDraw
    25 10 0 10 = .ok t' ∧ t'.outletT = 50 ∧ ∀ i, t'.nodeTs i = ![15, 25, 35, 45] i := by
  decide +kernel

example : ∃ t', ({ sampleTank with nodeTs := ![20, 30, 40, 50] } : Tank 3).processDraw
    75 10 30 60 = .ok t' ∧ 45 < t'.outletT ∧ t'.outletT < 50 := by
  decide +kernel

end HPWH
