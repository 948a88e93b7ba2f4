import Verif.Spec.Alike
import Verif.Props.ExportTank

/-! # C87: heaters with the same meaning behave the same -/

namespace HPWH

open Spec

variable {n k : ℕ}

/-! ## Results -/

namespace Spec.SameResult

variable {α β γ δ : Type} {R : α → β → Prop} {S : γ → δ → Prop}

theorem bind {x : Res α} {y : Res β} {f : α → Res γ} {g : β → Res δ} (h : SameResult R x y)
    (hf : ∀ a b, R a b → SameResult S (f a) (g b)) : SameResult S (x >>= f) (y >>= g) := by
  cases h with
  | ok h => exact hf _ _ h
  | error => exact .error

theorem refl (x : Res α) : SameResult Eq x x := by
  cases x with
  | ok a => exact .ok rfl
  | error e => exact .error

theorem of_eq {x y : Res α} (h : y = x) : SameResult Eq x y := h ▸ refl x

/-- The first call of both does the same. -/
theorem bind_eq {x y : Res α} {f g : α → Res γ} {S : γ → γ → Prop} (h : y = x)
    (hf : ∀ a, SameResult S (f a) (g a)) : SameResult S (x >>= f) (y >>= g) := by
  subst h
  cases y with
  | ok a => exact hf a
  | error e => exact .error

theorem mono {R' : α → β → Prop} {x : Res α} {y : Res β} (h : SameResult R x y) (hr : ∀ a b, R a b → R' a b) :
    SameResult R' x y := by
  cases h with
  | ok h => exact .ok (hr _ _ h)
  | error => exact .error

theorem eq {x y : Res α} (h : SameResult Eq x y) : x = y := by
  cases h with
  | ok h => rw [h]
  | error => rfl

end Spec.SameResult

/-! ## Tanks -/

/-- Tanks with the same contents and outputs. -/
structure TankLike (a b : Tank n) : Prop where
  shell : SameShell a.toTankCfg b.toTankCfg
  nodes : b.nodeTs = a.nodeTs
  outlet : b.outletT = a.outletT
  losses : b.standbyLosses_kJ = a.standbyLosses_kJ

namespace Tank

/-- The tank with other values of settings that are not in use. -/
def retouch (x y z : ℚ) (f : Bool) (t : Tank n) : Tank n :=
  { t with mixBelowFractionOnDraw := x, heatExchangerEffectiveness := y, nodeHeatExchangerEffectiveness := z,
           volumeFixed := f }

theorem retouch_mixInversions (x y z : ℚ) (f : Bool) (t : Tank n) :
    (t.retouch x y z f).mixInversions = t.mixInversions.retouch x y z f := by
  unfold mixInversions
  by_cases h : t.doInversionMixing <;> simp only [retouch, h, if_true, if_false, Bool.false_eq_true]
  all_goals rfl

theorem retouch_drawIncrement (x y z : ℚ) (f : Bool) (t : Tank n) (s : Inlets) (inc : ℚ) :
    drawIncrement (t.retouch x y z f) s inc
      = ((drawIncrement t s inc).1, (drawIncrement t s inc).2.retouch x y z f) := by
  unfold drawIncrement
  simp only
  rw [← retouch_mixInversions]
  rfl

theorem retouch_drawLoop (x y z : ℚ) (f : Bool) (s : Inlets) (fuel : ℕ) (r e : ℚ) (t : Tank n) :
    drawLoop s fuel r e (t.retouch x y z f)
      = (drawLoop s fuel r e t).map fun p => (p.1, p.2.retouch x y z f) := by
  induction fuel generalizing r e t with
  | zero => unfold drawLoop; split_ifs <;> rfl
  | succ fuel ih =>
    rw [drawLoop, drawLoop]
    split_ifs
    · simp only [retouch_drawIncrement]; exact ih _ _ _
    · simp only [retouch_drawIncrement]; exact ih _ _ _
    · rfl

theorem retouch_draw (x y z : ℚ) (f : Bool) (s : Inlets) (v : ℚ) (t : Tank n) :
    draw (t.retouch x y z f) s v = ((draw t s v).1, (draw t s v).2.retouch x y z f) := by
  unfold draw
  simp only [retouch_drawLoop, Option.get_map]

theorem drawIncrement_cfg (t : Tank n) (s : Inlets) (inc : ℚ) :
    (drawIncrement t s inc).2.toTankCfg = t.toTankCfg := by
  unfold drawIncrement mixInversions
  simp only
  split_ifs <;> rfl

theorem drawLoop_cfg (s : Inlets) (fuel : ℕ) (r e : ℚ) (t : Tank n) (p : ℚ × Tank n)
    (h : drawLoop s fuel r e t = some p) : p.2.toTankCfg = t.toTankCfg := by
  induction fuel generalizing r e t with
  | zero =>
    unfold drawLoop at h
    split_ifs at h
    cases h; rfl
  | succ fuel ih =>
    rw [drawLoop] at h
    by_cases hr : r > 0
    · rw [if_pos hr] at h
      exact (ih _ _ _ h).trans (drawIncrement_cfg _ _ _)
    · rw [if_neg hr] at h
      cases h; rfl

theorem draw_cfg (s : Inlets) (v : ℚ) (t : Tank n) : (draw t s v).2.toTankCfg = t.toTankCfg :=
  drawLoop_cfg s _ _ _ t _ (Option.some_get _).symm

theorem drawWater_cfg (t : Tank n) (v T v2 T2 : ℚ) : (t.drawWater v T v2 T2).toTankCfg = t.toTankCfg := by
  unfold drawWater
  split_ifs
  · rfl
  · exact draw_cfg _ _ _

theorem retouch_drawWater (x y z : ℚ) (f : Bool) (t : Tank n)
    (hz : t.hasHeatExchanger = true → z = t.nodeHeatExchangerEffectiveness) (v T v2 T2 : ℚ) :
    (t.retouch x y z f).drawWater v T v2 T2 = (t.drawWater v T v2 T2).retouch x y z f := by
  unfold drawWater
  have hs : sortInlets (t.retouch x y z f) v T v2 T2 = sortInlets t v T v2 T2 := rfl
  by_cases h : t.hasHeatExchanger = true
  · have h' : (t.retouch x y z f).hasHeatExchanger = true := h
    have e : (t.retouch x y z f).nodeHeatExchangerEffectiveness = t.nodeHeatExchangerEffectiveness := hz h
    simp only [h, h', if_true, e]; rfl
  · have h' : ¬ (t.retouch x y z f).hasHeatExchanger = true := h
    simp only [h, h', hs, retouch_draw]; rfl

theorem retouch_mixBottom (x y z : ℚ) (f : Bool) (t : Tank n)
    (hx : t.mixesOnDraw = true → x = t.mixBelowFractionOnDraw) :
    (t.retouch x y z f).mixBottom = t.mixBottom.map (retouch x y z f) := by
  unfold mixBottom
  by_cases hm : t.mixesOnDraw = true
  · have h1 : (t.retouch x y z f).mixesOnDraw = true := hm
    have h2 : (t.retouch x y z f).mixedBelowNode = t.mixedBelowNode := by
      simp [mixedBelowNode, retouch, hx hm, numNodes]
    have h3 : (t.retouch x y z f).nodeTs = t.nodeTs := rfl
    simp only [h1, hm, if_true, h2, h3]
    cases mixNodes t.nodeTs 0 t.mixedBelowNode (1 / 3) with
    | ok T => rfl
    | error e => rfl
  · have h1 : ¬ (t.retouch x y z f).mixesOnDraw = true := hm
    simp only [h1, hm]
    rfl

theorem retouch_processLosses (x y z : ℚ) (f : Bool) (t : Tank n) (hours seconds amb : ℚ) :
    (t.retouch x y z f).processLosses hours seconds amb
      = (t.processLosses hours seconds amb).map (retouch x y z f) := by
  unfold processLosses
  have h1 : (t.retouch x y z f).doConduction = t.doConduction := rfl
  have h2 : (t.retouch x y z f).tau seconds = t.tau seconds := rfl
  rw [h1, h2]
  split_ifs
  · rfl
  · unfold mixInversions
    by_cases h : t.doInversionMixing = true
    · have h' : (t.retouch x y z f).doInversionMixing = true := h
      simp only [h, h', if_true, Except.map]; rfl
    · have h' : ¬ (t.retouch x y z f).doInversionMixing = true := h
      simp only [h, h', Except.map]; rfl

theorem retouch_updateNodes (x y z : ℚ) (f : Bool) (t : Tank n)
    (hx : t.mixesOnDraw = true → x = t.mixBelowFractionOnDraw)
    (hz : t.hasHeatExchanger = true → z = t.nodeHeatExchangerEffectiveness) (hours seconds v T amb v2 T2 : ℚ) :
    (t.retouch x y z f).updateNodes hours seconds v T amb v2 T2
      = (t.updateNodes hours seconds v T amb v2 T2).map (retouch x y z f) := by
  unfold updateNodes
  have e : (t.retouch x y z f).processDraw v T v2 T2 = (t.processDraw v T v2 T2).map (retouch x y z f) := by
    unfold processDraw
    split_ifs
    · rfl
    · have hc := drawWater_cfg t v T v2 T2
      rw [retouch_drawWater x y z f t hz, retouch_mixBottom]
      rw [show (t.drawWater v T v2 T2).mixesOnDraw = t.mixesOnDraw from congrArg TankCfg.mixesOnDraw hc,
        show (t.drawWater v T v2 T2).mixBelowFractionOnDraw = t.mixBelowFractionOnDraw from
          congrArg TankCfg.mixBelowFractionOnDraw hc]
      exact hx
    · rfl
  rw [e]
  cases t.processDraw v T v2 T2 with
  | ok t1 => exact retouch_processLosses x y z f t1 hours seconds amb
  | error e => rfl

end Tank

namespace TankLike

variable {a b : Tank n}

theorem eq_retouch (h : TankLike a b) : b = a.retouch b.mixBelowFractionOnDraw b.heatExchangerEffectiveness
    b.nodeHeatExchangerEffectiveness b.volumeFixed := by
  obtain ⟨⟨hr, -, -⟩, h1, h2, h3⟩ := h
  obtain ⟨cb, Tb, lb, ob⟩ := b
  obtain ⟨ca, Ta, la, oa⟩ := a
  simp only at h1 h2 h3 hr
  subst h1 h2 h3
  unfold Tank.retouch
  simp only [Tank.mk.injEq, and_true]
  exact hr

theorem of_retouch (a : Tank n) (x y z : ℚ) (f : Bool)
    (hx : a.mixesOnDraw = true → x = a.mixBelowFractionOnDraw)
    (hz : a.hasHeatExchanger = true → z = a.nodeHeatExchangerEffectiveness) : TankLike a (a.retouch x y z f) :=
  ⟨⟨rfl, hx, hz⟩, rfl, rfl, rfl⟩

/-- Tanks whose settings are those of tanks alike and whose contents are the same. -/
theorem with_nodes {a b : Tank n} (h : TankLike a b) (T : Nodes n ℚ) (l o : ℚ) :
    TankLike ({ a with nodeTs := T, standbyLosses_kJ := l, outletT := o } : Tank n)
      { b with nodeTs := T, standbyLosses_kJ := l, outletT := o } := ⟨h.shell, rfl, rfl, rfl⟩

theorem nodeCp (h : TankLike a b) : b.nodeCp = a.nodeCp := by rw [h.eq_retouch]; rfl
theorem volume (h : TankLike a b) : b.volume_L = a.volume_L := by rw [h.eq_retouch]; rfl
theorem nodeVolume (h : TankLike a b) : b.nodeVolume_L = a.nodeVolume_L := by rw [h.eq_retouch]; rfl

theorem updateNodes (h : TankLike a b) (hours seconds v T amb v2 T2 : ℚ) :
    SameResult TankLike (a.updateNodes hours seconds v T amb v2 T2) (b.updateNodes hours seconds v T amb v2 T2) := by
  rw [h.eq_retouch, Tank.retouch_updateNodes _ _ _ _ _ h.shell.mixing h.shell.exchanger]
  cases e : a.updateNodes hours seconds v T amb v2 T2 with
  | ok t =>
    refine .ok (of_retouch t _ _ _ _ ?_ ?_)
    all_goals
      have hc : t.toTankCfg = a.toTankCfg := by
        unfold Tank.updateNodes Tank.processDraw at e
        split at e
        · next t1 h1 =>
          have h2 : t1.toTankCfg = a.toTankCfg := by
            split_ifs at h1
            · unfold Tank.mixBottom at h1
              split_ifs at h1
              · split at h1
                · cases h1; exact Tank.drawWater_cfg _ _ _ _ _
                · cases h1
              · cases h1; exact Tank.drawWater_cfg _ _ _ _ _
            · cases h1; rfl
          unfold Tank.processLosses Tank.mixInversions at e
          split_ifs at e
          all_goals cases e; exact h2
        · cases e
      have h1 : t.mixesOnDraw = a.mixesOnDraw := congrArg TankCfg.mixesOnDraw hc
      have h2 : t.mixBelowFractionOnDraw = a.mixBelowFractionOnDraw := congrArg TankCfg.mixBelowFractionOnDraw hc
      have h3 : t.hasHeatExchanger = a.hasHeatExchanger := congrArg TankCfg.hasHeatExchanger hc
      have h4 : t.nodeHeatExchangerEffectiveness = a.nodeHeatExchangerEffectiveness :=
        congrArg TankCfg.nodeHeatExchangerEffectiveness hc
      simp only [h1, h2, h3, h4]
      first | exact h.shell.mixing | exact h.shell.exchanger
  | error e => exact .error

theorem mixInversions (h : TankLike a b) : TankLike a.mixInversions b.mixInversions := by
  rw [h.eq_retouch, Tank.retouch_mixInversions]
  have hc : a.mixInversions.toTankCfg = a.toTankCfg := by unfold Tank.mixInversions; split_ifs <;> rfl
  refine of_retouch _ _ _ _ _ ?_ ?_
  · have h1 : a.mixInversions.mixesOnDraw = a.mixesOnDraw := congrArg TankCfg.mixesOnDraw hc
    have h2 : a.mixInversions.mixBelowFractionOnDraw = a.mixBelowFractionOnDraw :=
      congrArg TankCfg.mixBelowFractionOnDraw hc
    rw [h1, h2]; exact h.shell.mixing
  · have h3 : a.mixInversions.hasHeatExchanger = a.hasHeatExchanger := congrArg TankCfg.hasHeatExchanger hc
    have h4 : a.mixInversions.nodeHeatExchangerEffectiveness = a.nodeHeatExchangerEffectiveness :=
      congrArg TankCfg.nodeHeatExchangerEffectiveness hc
    rw [h3, h4]; exact h.shell.exchanger

theorem addHeatAboveNode (h : TankLike a b) (q : ℚ) (j : Fin (n + 1)) (maxT : ℚ) :
    (b.addHeatAboveNode q j maxT).1 = (a.addHeatAboveNode q j maxT).1 ∧
      TankLike (a.addHeatAboveNode q j maxT).2 (b.addHeatAboveNode q j maxT).2 := by
  rw [h.eq_retouch]
  exact ⟨rfl, of_retouch (a.addHeatAboveNode q j maxT).2 _ _ _ _ h.shell.mixing h.shell.exchanger⟩

theorem addExtraHeatAboveNode (h : TankLike a b) (q : ℚ) (j : Fin (n + 1)) :
    TankLike (a.addExtraHeatAboveNode q j) (b.addExtraHeatAboveNode q j) := by
  rw [h.eq_retouch]
  exact of_retouch (a.addExtraHeatAboveNode q j) _ _ _ _ h.shell.mixing h.shell.exchanger

theorem heatLoop (h : TankLike a b) (offered cap maxW : ℚ) (dist : Nodes n ℚ) (i : ℕ) (hi : i ≤ n + 1) (lo : ℚ) :
    (HPWH.heatLoop offered cap maxW dist i hi lo b).1 = (HPWH.heatLoop offered cap maxW dist i hi lo a).1 ∧
      TankLike (HPWH.heatLoop offered cap maxW dist i hi lo a).2
        (HPWH.heatLoop offered cap maxW dist i hi lo b).2 := by
  induction i generalizing lo a b with
  | zero => exact ⟨rfl, h⟩
  | succ i ih =>
    unfold HPWH.heatLoop
    dsimp only
    split_ifs
    · obtain ⟨h1, h2⟩ := h.addHeatAboveNode (dist ⟨i, by omega⟩ * offered +
        (lo - (1 - dist ⟨i, by omega⟩ / maxW) ^ 2 * lo)) ⟨i, by omega⟩ cap
      rw [h1]
      exact ih h2 _ _
    · exact ih h _ _

theorem heat (h : TankLike a b) (setpoint : ℚ) (dist : Nodes n ℚ) (offered maxT : ℚ) :
    SameResult (fun x y : ℚ × Tank n => y.1 = x.1 ∧ TankLike x.2 y.2) (HPWH.heat a setpoint dist offered maxT)
      (HPWH.heat b setpoint dist offered maxT) := by
  unfold HPWH.heat
  split_ifs
  · exact .error
  · exact .ok (h.heatLoop _ _ _ _ _ _ _)

theorem extraLoop (h : TankLike a b) (minutes : ℚ) (w : Nodes n ℚ) (i : ℕ) (hi : i ≤ n + 1) (tot : ℚ) :
    (Sim.extraLoop minutes w i hi tot b).1 = (Sim.extraLoop minutes w i hi tot a).1 ∧
      TankLike (Sim.extraLoop minutes w i hi tot a).2 (Sim.extraLoop minutes w i hi tot b).2 := by
  induction i generalizing tot a b with
  | zero => exact ⟨rfl, h⟩
  | succ i ih =>
    unfold Sim.extraLoop
    dsimp only
    split_ifs
    · exact ih (h.addExtraHeatAboveNode _ _) _ _
    · exact ih h _ _

end TankLike

/-! ## Plants and logics -/

/-- Plants with the same contents and outputs. -/
def PlantLike (p q : Plant n) : Prop := ∃ t, TankLike p.tank t ∧ q = { p with tank := t }

namespace PlantLike

variable {p q : Plant n}

theorem tank (h : PlantLike p q) : TankLike p.tank q.tank := by
  obtain ⟨t, ht, rfl⟩ := h; exact ht

theorem updateSoC (h : PlantLike p q) : SameResult PlantLike p.updateSoC q.updateSoC := by
  obtain ⟨t, ht, rfl⟩ := h
  unfold Plant.updateSoC Plant.mainsT
  cases e : p.socControl with
  | none => exact .ok ⟨t, ht, by rw [e]⟩
  | some c =>
    simp only [ht.nodes]
    split
    · exact .ok ⟨t, ht, rfl⟩
    · exact .error

theorem comparisonValue (h : PlantLike p q) (l : Logic) : l.comparisonValue q = l.comparisonValue p := by
  obtain ⟨t, ht, rfl⟩ := h; rfl

theorem tankValue (h : PlantLike p q) (l : Logic) : l.tankValue q = l.tankValue p := by
  obtain ⟨t, ht, rfl⟩ := h
  unfold Logic.tankValue; rw [ht.nodes]

theorem fractToMeet (h : PlantLike p q) (l : Logic) : l.fractToMeet q = l.fractToMeet p := by
  have h1 := h.comparisonValue
  have h2 := h.tankValue
  obtain ⟨t, ht, rfl⟩ := h
  unfold Logic.fractToMeet Logic.tempFract Logic.socFract Plant.mainsT
  simp only [h1, h2, ht.nodes]

theorem holds (h : PlantLike p q) (l : Logic) : l.holds q = l.holds p := by
  unfold Logic.holds; rw [h.tankValue, h.comparisonValue]

theorem anyHolds (h : PlantLike p q) {l l' : List Logic} (hl : List.Forall₂ SameLogic l' l) :
    HPWH.anyHolds q l' = HPWH.anyHolds p l := by
  induction hl with
  | nil => rfl
  | cons h1 _ ih => unfold HPWH.anyHolds; rw [h.holds, h1.decision, ih]

theorem fractToMeetLoop (h : PlantLike p q) {l l' : List Logic} (hl : List.Forall₂ SameLogic l' l) (f : ℚ) :
    SourceCfg.fractToMeetLoop q l' f = SourceCfg.fractToMeetLoop p l f := by
  induction hl generalizing f with
  | nil => rfl
  | cons h1 _ ih =>
    unfold SourceCfg.fractToMeetLoop
    rw [h.fractToMeet, h1.fraction]
    congr 1
    funext x
    exact ih _

variable {s s' : SourceCfg n k}

theorem shutsOff (h : PlantLike p q) (hs : SameSource s s') : s'.shutsOff q = s.shutsOff p := by
  unfold SourceCfg.shutsOff
  rw [h.tank.nodes, h.anyHolds hs.shutOff]
  obtain ⟨t, ht, rfl⟩ := h
  rfl

theorem wantsHeat (h : PlantLike p q) (hs : SameSource s s') {l l' : Logic} (hl : SameLogic l' l) :
    s'.wantsHeat q l' = s.wantsHeat p l := by
  unfold SourceCfg.wantsHeat
  rw [h.tankValue, hl.reads, h.comparisonValue, hl.compares, hl.comparison, hl.standby]
  have hst := hs.standby
  generalize s'.standby = x' at hst
  generalize s.standby = x at hst
  cases l.checkStandby <;> cases hst with
  | none => rfl
  | some hb => first | rfl | simp only [h.tankValue, hb.reads, h.comparisonValue, hb.compares]

theorem shouldHeatLoop (h : PlantLike p q) (hs : SameSource s s') {l l' : List Logic}
    (hl : List.Forall₂ SameLogic l' l) : s'.shouldHeatLoop q l' = s.shouldHeatLoop p l := by
  induction hl with
  | nil => rfl
  | cons h1 _ ih => unfold SourceCfg.shouldHeatLoop; rw [h.wantsHeat hs h1, ih]

theorem shouldHeat (h : PlantLike p q) (hs : SameSource s s') : s'.shouldHeat q = s.shouldHeat p := by
  unfold SourceCfg.shouldHeat
  rw [h.shouldHeatLoop hs hs.turnOn, h.shutsOff hs]

theorem fractToMeetAll (h : PlantLike p q) (hs : SameSource s s') : s'.fractToMeet q = s.fractToMeet p :=
  h.fractToMeetLoop hs.shutOff 1

theorem tankTemp (h : PlantLike p q) (hs : SameSource s s') : s'.tankTemp q = s.tankTemp p := by
  unfold SourceCfg.tankTemp
  rw [h.tank.nodes, hs.average]

theorem maxedOut (h : PlantLike p q) (hs : SameSource s s') : s'.maxedOut q = s.maxedOut p := by
  unfold SourceCfg.maxedOut
  rw [hs.kind, h.tank.nodes, h.shutsOff hs]
  obtain ⟨t, ht, rfl⟩ := h
  rfl

theorem toLockOrUnlock (h : PlantLike p q) (hs : SameSource s s') {c : CondCfg} (hc : s.kind = .condenser c)
    (st : SourceState) (amb : ℚ) : HPWH.toLockOrUnlock s' c st q amb = HPWH.toLockOrUnlock s c st p amb := by
  obtain ⟨e1, e2, -⟩ := hs.heatPump ⟨c, hc⟩
  unfold HPWH.toLockOrUnlock HPWH.shouldLockOut HPWH.shouldUnlock
  rw [h.maxedOut hs, e1, e2]

end PlantLike

/-! ## Adding heat -/

/-- What `addHeat` returns. -/
abbrev PlantStLike (x y : Plant n × SourceState) : Prop := PlantLike x.1 y.1 ∧ y.2 = x.2

section AddHeat

variable {p q : Plant n} {s s' : SourceCfg n k}

theorem resistanceAddHeat_like (h : PlantLike p q) (hs : SameSource s s') (power : ℚ) (st : SourceState)
    (minutes : ℚ) : SameResult PlantStLike (resistanceAddHeat s power p st minutes)
      (resistanceAddHeat s' power q st minutes) := by
  obtain ⟨t, ht, rfl⟩ := h
  unfold resistanceAddHeat
  refine .bind_eq (hs.shares (n + 1)).1 fun dist => ?_
  dsimp only
  refine .bind (ht.heat _ _ _ _) fun x y hxy => ?_
  rw [hxy.1]
  split_ifs
  · exact .error
  · exact .error
  · exact .ok ⟨⟨y.2, hxy.2, rfl⟩, rfl⟩

theorem internalAddHeat_like (exp : ℚ → ℚ) (h : PlantLike p q) (hs : SameSource s s') {c : CondCfg}
    (hc : s.kind = .condenser c) (st : SourceState) (externalT minutes : ℚ) :
    SameResult PlantStLike (internalAddHeat exp s c p st externalT minutes)
      (internalAddHeat exp s' c q st externalT minutes) := by
  obtain ⟨-, -, e3, -, -, e6, e7⟩ := hs.heatPump ⟨c, hc⟩
  have hd : condenserHeatDist exp s' c q = condenserHeatDist exp s c p := by
    unfold condenserHeatDist
    rw [e6, e7, h.tank.nodes, (hs.shares (n + 1)).1]
    obtain ⟨t, ht, rfl⟩ := h
    rfl
  unfold internalAddHeat
  refine .bind_eq (h.tankTemp hs) fun inlet => ?_
  obtain ⟨t, ht, rfl⟩ := h
  rw [e3]
  refine .bind_eq rfl fun perf => ?_
  dsimp only
  refine .bind_eq hd fun dist => ?_
  refine .bind (ht.heat _ _ _ _) fun x y hxy => ?_
  rw [hxy.1]
  split_ifs
  · exact .error
  · exact .error
  · refine .bind_eq (PlantLike.tankTemp ⟨y.2, hxy.2, rfl⟩ hs) fun outlet => ?_
    exact .ok ⟨⟨y.2, hxy.2, rfl⟩, rfl⟩

/-- States of external heating with the same contents. -/
def ExtLike (a b : ExtState n) : Prop := ∃ q, PlantLike a.plant q ∧ b = { a with plant := q }

theorem extFinishPass_like (h : PlantLike p q) (hs : SameSource s s') {c : CondCfg} (hc : s.kind = .condenser c)
    (net perf : Perf) (frac target time remaining : ℚ) :
    SameResult ExtLike (extFinishPass s c p net perf frac target time remaining)
      (extFinishPass s' c q net perf frac target time remaining) := by
  obtain ⟨-, -, -, e4, e5, -, -⟩ := hs.heatPump ⟨c, hc⟩
  obtain ⟨t, ht, rfl⟩ := h
  unfold extFinishPass
  dsimp only
  rw [e4, e5, ht.nodes]
  have ht' : TankLike ({ p.tank with
      nodeTs := shiftNodes p.tank.nodeTs s.externalOutlet s.externalInlet frac target } : Tank n)
      { t with nodeTs := shiftNodes p.tank.nodeTs s.externalOutlet s.externalInlet frac target } :=
    ⟨ht.shell, rfl, ht.outlet, ht.losses⟩
  refine .bind (PlantLike.updateSoC ⟨_, ht'.mixInversions, rfl⟩) fun x y hxy => ?_
  obtain ⟨t2, ht2, rfl⟩ := hxy
  dsimp only
  rw [ht2.nodeVolume]
  exact .ok ⟨_, ⟨t2, ht2, rfl⟩, rfl⟩

theorem spPass_like {a b : ExtState n} (h : ExtLike a b) (hs : SameSource s s') {c : CondCfg}
    (hc : s.kind = .condenser c) (externalT : ℚ) :
    SameResult (Option.Rel ExtLike) (spPass s c externalT a) (spPass s' c externalT b) := by
  obtain ⟨-, -, e3, e4, e5, -, -⟩ := hs.heatPump ⟨c, hc⟩
  obtain ⟨q, hq, rfl⟩ := h
  have hf := hq.fractToMeetAll hs
  have hfin := fun net perf frac target time remaining =>
    extFinishPass_like hq hs hc net perf frac target time remaining
  obtain ⟨t, ht, rfl⟩ := hq
  unfold spPass
  dsimp only
  rw [e3, e5, ht.nodes, ht.nodeCp]
  refine .bind_eq rfl fun perf => ?_
  by_cases h1 : min c.maxSetpoint a.plant.setpoint - a.plant.tank.nodeTs s.externalOutlet ≤ 0
  · rw [if_pos h1, if_pos h1]; exact .ok .none
  · rw [if_neg h1, if_neg h1]
    refine .bind_eq hf fun f => ?_
    split_ifs <;> first
      | exact .error
      | exact .bind (hfin _ _ _ _ _ _) fun x y hxy => .ok (.some hxy)

theorem spLoop_like {a b : ExtState n} (h : ExtLike a b) (hs : SameSource s s') {c : CondCfg}
    (hc : s.kind = .condenser c) (externalT : ℚ) (fuel : ℕ) :
    SameResult ExtLike (spLoop s c externalT fuel a) (spLoop s' c externalT fuel b) := by
  induction fuel generalizing a b with
  | zero => exact .error
  | succ fuel ih =>
    unfold spLoop
    refine .bind (spPass_like h hs hc externalT) fun x y hxy => ?_
    cases hxy with
    | none => exact .ok h
    | some hx =>
      next x' y' =>
      have e : y'.remaining = x'.remaining := by obtain ⟨q, -, rfl⟩ := hx; rfl
      have hp : PlantLike x'.plant y'.plant := by obtain ⟨q, hq, rfl⟩ := hx; exact hq
      dsimp only
      rw [e]
      split_ifs
      · refine .bind_eq (hp.shutsOff hs) fun off => ?_
        cases off
        · exact ih hx
        · exact .ok hx
      · exact .ok hx

theorem mpPass_like {a b : ExtState n} (h : ExtLike a b) (hs : SameSource s s') {c : CondCfg}
    (hc : s.kind = .condenser c) (externalT : ℚ) :
    SameResult ExtLike (mpPass s c externalT a) (mpPass s' c externalT b) := by
  obtain ⟨-, -, e3, e4, e5, -, -⟩ := hs.heatPump ⟨c, hc⟩
  obtain ⟨q, ⟨t, ht, rfl⟩, rfl⟩ := h
  unfold mpPass
  dsimp only
  rw [e3, e5, ht.nodes, ht.nodeVolume]
  refine .bind_eq rfl fun T => ?_
  refine .bind_eq rfl fun perf => ?_
  simp only [ht.nodeCp]
  have hp : PlantLike { a.plant with tank := { a.plant.tank with nodeTs := T } }
      { a.plant with tank := { t with nodeTs := T } } := ⟨{ t with nodeTs := T }, ⟨ht.shell, rfl, ht.outlet, ht.losses⟩, rfl⟩
  split_ifs <;> first
    | exact .error
    | exact extFinishPass_like hp hs hc _ _ _ _ _ _

theorem mpLoop_like {a b : ExtState n} (h : ExtLike a b) (hs : SameSource s s') {c : CondCfg}
    (hc : s.kind = .condenser c) (externalT : ℚ) (fuel : ℕ) :
    SameResult ExtLike (mpLoop s c externalT fuel a) (mpLoop s' c externalT fuel b) := by
  induction fuel generalizing a b with
  | zero => exact .error
  | succ fuel ih =>
    unfold mpLoop
    refine .bind (mpPass_like h hs hc externalT) fun x y hx => ?_
    have e : y.remaining = x.remaining := by obtain ⟨q, -, rfl⟩ := hx; rfl
    have hp : PlantLike x.plant y.plant := by obtain ⟨q, hq, rfl⟩ := hx; exact hq
    rw [e]
    split_ifs
    · refine .bind_eq (hp.shutsOff hs) fun off => ?_
      cases off
      · exact ih hx
      · exact .ok hx
    · exact .ok hx

theorem externalAddHeat_like (fuel : ℕ) (h : PlantLike p q) (hs : SameSource s s') {c : CondCfg}
    (hc : s.kind = .condenser c) (st : SourceState) (externalT minutes : ℚ) :
    SameResult PlantStLike (externalAddHeat fuel s c p st externalT minutes)
      (externalAddHeat fuel s' c q st externalT minutes) := by
  unfold externalAddHeat
  have h0 : ExtLike (⟨p, minutes, ⟨0, 0, 0⟩⟩ : ExtState n) ⟨q, minutes, ⟨0, 0, 0⟩⟩ := ⟨q, h, rfl⟩
  have h2 : ∀ x y : ExtState n, ExtLike x y →
      (extFinish minutes y).1 = (extFinish minutes x).1 ∧
        PlantLike (extFinish minutes x).2.1 (extFinish minutes y).2.1 ∧
        (extFinish minutes y).2.2 = (extFinish minutes x).2.2 := by
    rintro x y ⟨q, ⟨t, ht, rfl⟩, rfl⟩
    unfold extFinish
    dsimp only
    split_ifs
    · exact ⟨rfl, ⟨t, ht, rfl⟩, rfl⟩
    · exact ⟨rfl, ⟨t, ht, rfl⟩, rfl⟩
  have h1 : SameResult (fun x y : ℚ × Plant n × Perf => y.1 = x.1 ∧ PlantLike x.2.1 y.2.1 ∧ y.2.2 = x.2.2)
      (addHeatExternal fuel s c p externalT minutes) (addHeatExternal fuel s' c q externalT minutes) := by
    unfold addHeatExternal
    dsimp only
    split_ifs
    · exact .bind (mpLoop_like h0 hs hc externalT fuel) fun x y hx => .ok (h2 x y hx)
    · exact .bind (spLoop_like h0 hs hc externalT fuel) fun x y hx => .ok (h2 x y hx)
  refine .bind h1 fun x y hxy => ?_
  obtain ⟨e1, e2, e3⟩ := hxy
  rw [e1, e3]
  exact .ok ⟨e2, rfl⟩

theorem addHeatKind_like (m : Libm) (fuel : ℕ) (h : PlantLike p q) (hs : SameSource s s') (st : SourceState)
    (amb minutes : ℚ) : SameResult PlantStLike (Sim.addHeatKind m fuel s p st amb minutes)
      (Sim.addHeatKind m fuel s' q st amb minutes) := by
  unfold Sim.addHeatKind
  rw [hs.kind]
  cases hk : s.kind with
  | resistance w => exact resistanceAddHeat_like h hs w st minutes
  | condenser c =>
    unfold condenserAddHeat
    dsimp only
    cases c.configuration
    · exact internalAddHeat_like m.exp h hs hk st amb minutes
    · exact internalAddHeat_like m.exp h hs hk st amb minutes
    · exact externalAddHeat_like fuel h hs hk st amb minutes

end AddHeat

/-! ## The step -/

/-- Simulators with the same contents, outputs and meaning. -/
def SimLike (s s' : Sim n k) : Prop :=
  ∃ t c, TankLike s.tank t ∧ SameSettings s.cfg c ∧ s' = { s with tank := t, cfg := c }

namespace SimLike

variable {s s' : Sim n k}

theorem plant (h : SimLike s s') : PlantLike s.toPlant s'.toPlant := by
  obtain ⟨t, c, ht, -, rfl⟩ := h; exact ⟨t, ht, rfl⟩

theorem cfg (h : SimLike s s') : SameSettings s.cfg s'.cfg := by
  obtain ⟨t, c, -, hc, rfl⟩ := h; exact hc

theorem src (h : SimLike s s') (i : Fin k) : SameSource (s.cfg.src i) (s'.cfg.src i) := h.cfg.src i

theorem st (h : SimLike s s') : s'.st = s.st := by
  obtain ⟨t, c, -, -, rfl⟩ := h; rfl

theorem heating (h : SimLike s s') : s'.isHeating = s.isHeating := by
  obtain ⟨t, c, -, -, rfl⟩ := h; rfl

theorem setSt (h : SimLike s s') (i : Fin k) (x : SourceState) : SimLike (s.setSt i x) (s'.setSt i x) := by
  obtain ⟨t, c, ht, hc, rfl⟩ := h; exact ⟨t, c, ht, hc, rfl⟩

theorem disengage (h : SimLike s s') (i : Fin k) : SimLike (s.disengage i) (s'.disengage i) := by
  unfold Sim.disengage; rw [h.st]; exact h.setSt _ _

theorem turnAllOff (h : SimLike s s') : SimLike s.turnAllOff s'.turnAllOff := by
  obtain ⟨t, c, ht, hc, rfl⟩ := h; exact ⟨t, c, ht, hc, rfl⟩

theorem allOff (h : SimLike s s') : s'.allOff = s.allOff := by
  unfold Sim.allOff; rw [h.st]

theorem with_heating (h : SimLike s s') (b : Bool) :
    SimLike { s with isHeating := b } { s' with isHeating := b } := by
  obtain ⟨t, c, ht, hc, rfl⟩ := h; exact ⟨t, c, ht, hc, rfl⟩

theorem engageAux (dr : DR) (fuel : ℕ) (h : SimLike s s') (i : Fin k) :
    SameResult SimLike (Sim.engageAux dr fuel s i) (Sim.engageAux dr fuel s' i) := by
  induction fuel generalizing s s' i with
  | zero => exact .error
  | succ fuel ih =>
    have key (a b : Sim n k) (hab : SimLike a b) :
        SameResult SimLike
          (match (s.cfg.src i).companion with
            | none => .ok a
            | some j => do
              let off ← (s.cfg.src j).shutsOff a.toPlant
              if !off && !(a.st j).isOn && !shouldDRLockOut (s.cfg.src j).kind dr then
                Sim.engageAux dr fuel a j
              else return a)
          (match (s'.cfg.src i).companion with
            | none => .ok b
            | some j => do
              let off ← (s'.cfg.src j).shutsOff b.toPlant
              if !off && !(b.st j).isOn && !shouldDRLockOut (s'.cfg.src j).kind dr then
                Sim.engageAux dr fuel b j
              else return b) := by
      rw [(h.src i).companion]
      cases (s.cfg.src i).companion with
      | none => exact .ok hab
      | some j =>
        refine .bind_eq (hab.plant.shutsOff (h.src j)) fun off => ?_
        rw [(h.src j).kind, hab.st]
        split_ifs
        · exact ih hab j
        · exact .ok hab
    have h1 := (h.setSt i { s.st i with isOn := true }).with_heating true
    have h2 := key _ _ h1
    rw [← h.st] at h2
    unfold Sim.engageAux
    rw [← h.st]
    exact h2

theorem engage (dr : DR) (h : SimLike s s') (i : Fin k) :
    SameResult SimLike (Sim.engage dr s i) (Sim.engage dr s' i) := h.engageAux dr _ i

theorem engageIf (dr : DR) (h : SimLike s s') (o : Option (Fin k)) :
    SameResult SimLike (Sim.engageIf dr s o) (Sim.engageIf dr s' o) := by
  cases o with
  | none => exact .ok h
  | some j => exact h.engage dr j

theorem topOff (dr : DR) (h : SimLike s s') : SameResult SimLike (Sim.topOff dr s) (Sim.topOff dr s') := by
  unfold Sim.topOff
  have e : s'.timerTOT = s.timerTOT := by obtain ⟨t, c, -, -, rfl⟩ := h; rfl
  rw [e, h.cfg.heatPump, h.cfg.element]
  split_ifs
  · exact .bind (h.engageIf dr _) fun x y hxy => hxy.engageIf dr _
  · exact .ok h

theorem handOver (dr : DR) (h : SimLike s s') (i : Fin k) :
    SameResult SimLike (Sim.handOver dr s i) (Sim.handOver dr s' i) := by
  unfold Sim.handOver
  have e : s'.engagedShutsOff i = s.engagedShutsOff i := by
    unfold Sim.engagedShutsOff
    rw [h.st, h.plant.shutsOff (h.src i)]
  refine .bind_eq e fun off => ?_
  rw [(h.src i).backup]
  cases off with
  | false => exact .ok h
  | true =>
    cases (s.cfg.src i).backup with
    | none => exact .ok (h.disengage i)
    | some b =>
      refine .bind_eq (h.plant.shutsOff (h.src b)) fun boff => ?_
      cases boff with
      | true => exact .ok (h.disengage i)
      | false => exact (h.disengage i).engage dr b

theorem chooseBody (dr : DR) (h : SimLike s s') (i : Fin k) :
    SameResult (fun x y : Sim n k × Bool => SimLike x.1 y.1 ∧ y.2 = x.2) (Sim.chooseBody dr s i)
      (Sim.chooseBody dr s' i) := by
  unfold Sim.chooseBody
  rw [h.heating, (h.src i).priority, (h.src i).kind, h.cfg.heatPump]
  split_ifs with h1 h2 h3
  · refine .bind (h.handOver dr i) fun x y hxy => ?_
    refine .bind_eq (hxy.plant.shouldHeat (h.src i)) fun want => ?_
    cases want with
    | false => exact .ok ⟨hxy, rfl⟩
    | true =>
      simp only [if_true]
      cases s.cfg.compressorIndex with
      | none => exact .ok ⟨hxy, rfl⟩
      | some j => exact .bind (hxy.engage dr j) fun a b hab => .ok ⟨hab, rfl⟩
  · refine .bind (h.handOver dr i) fun x y hxy => ?_
    refine .bind_eq (hxy.plant.shouldHeat (h.src i)) fun want => ?_
    cases want with
    | false => exact .ok ⟨hxy, rfl⟩
    | true => exact .bind (hxy.turnAllOff.engage dr i) fun a b hab => .ok ⟨hab, rfl⟩
  · exact .bind (h.handOver dr i) fun x y hxy => .ok ⟨hxy, rfl⟩
  · refine .bind_eq (h.plant.shouldHeat (h.src i)) fun want => ?_
    cases want with
    | false => exact .ok ⟨h, rfl⟩
    | true => exact .bind (h.engage dr i) fun a b hab => .ok ⟨hab, rfl⟩

theorem chooseLoop (dr : DR) (l : List (Fin k)) (h : SimLike s s') :
    SameResult SimLike (Sim.chooseLoop dr l s) (Sim.chooseLoop dr l s') := by
  induction l generalizing s s' with
  | nil => exact .ok h
  | cons i is ih =>
    unfold Sim.chooseLoop
    refine .bind (h.chooseBody dr i) fun x y hxy => ?_
    rw [hxy.2]
    split_ifs
    · exact .ok hxy.1
    · exact ih hxy.1

theorem lockUnlock (dr : DR) (amb : ℚ) (h : SimLike s s') (i : Fin k) :
    SameResult SimLike (Sim.lockUnlock dr amb s i) (Sim.lockUnlock dr amb s' i) := by
  unfold Sim.lockUnlock
  rw [(h.src i).kind, h.st]
  split_ifs
  · exact .ok (h.setSt _ _)
  · cases hk : (s.cfg.src i).kind with
    | resistance w => exact .ok (h.setSt _ _)
    | condenser c => exact .bind_eq (h.plant.toLockOrUnlock (h.src i) hk _ _) fun x => .ok (h.setSt _ _)

theorem applyLocks (dr : DR) (amb : ℚ) (h : SimLike s s') (i : Fin k) :
    SameResult SimLike (Sim.applyLocks dr amb s i) (Sim.applyLocks dr amb s' i) := by
  unfold Sim.applyLocks
  refine .bind (h.lockUnlock dr amb i) fun x y hxy => ?_
  rw [hxy.st, (h.src i).backup]
  split_ifs
  · exact .ok (hxy.disengage i)
  · exact .ok hxy

theorem backupBarred (dr : DR) (amb : ℚ) (h : SimLike s s') (i b : Fin k) :
    SameResult (fun x y : Sim n k × Bool => SimLike x.1 y.1 ∧ y.2 = x.2) (Sim.backupBarred dr amb s i b)
      (Sim.backupBarred dr amb s' i b) := by
  unfold Sim.backupBarred
  dsimp only
  rw [(h.src i).kind, (h.src b).kind, h.st]
  cases hk : (s.cfg.src b).kind with
  | condenser c =>
    exact .bind_eq (h.plant.toLockOrUnlock (h.src b) hk _ _) fun x => .ok ⟨h.setSt _ _, rfl⟩
  | resistance w =>
    cases (s.cfg.src i).kind with
    | condenser c => exact .ok ⟨h, rfl⟩
    | resistance w => exact .ok ⟨h, rfl⟩

theorem isResistance (h : SimLike s s') (i : Fin k) : s'.isResistance i = s.isResistance i := by
  unfold Sim.isResistance; rw [(h.src i).kind]

theorem vipOn (h : SimLike s s') : s'.vipOn = s.vipOn := by
  unfold Sim.vipOn; rw [h.cfg.priority, h.st]

theorem pickSource (dr : DR) (amb : ℚ) (h : SimLike s s') (i : Fin k) :
    SameResult (fun x y : Sim n k × Option (Fin k) => SimLike x.1 y.1 ∧ y.2 = x.2) (Sim.pickSource dr amb s i)
      (Sim.pickSource dr amb s' i) := by
  unfold Sim.pickSource
  rw [h.st, (h.src i).backup]
  split_ifs
  · cases (s.cfg.src i).backup with
    | none => exact .ok ⟨h, rfl⟩
    | some b =>
      refine .bind (h.backupBarred dr amb i b) fun x y hxy => ?_
      rw [hxy.2, hxy.1.vipOn, h.isResistance]
      split_ifs
      · exact .ok ⟨hxy.1, rfl⟩
      · exact .ok ⟨hxy.1, rfl⟩
      · exact .ok ⟨hxy.1, rfl⟩
  · exact .ok ⟨h, rfl⟩

theorem addHeat_cfg (m : Libm) (fuel : ℕ) (h : SimLike s s') (i : Fin k) (amb minutes : ℚ) :
    SameResult (fun x y => SimLike x y ∧ x.cfg = s.cfg) (s.addHeat m fuel i amb minutes)
      (s'.addHeat m fuel i amb minutes) := by
  unfold Sim.addHeat
  rw [h.st]
  refine .bind (addHeatKind_like m fuel h.plant (h.src i) _ _ _) fun x y hxy => ?_
  obtain ⟨⟨t, ht, e1⟩, e2⟩ := hxy
  rw [e1, e2]
  obtain ⟨t0, c, -, hc, rfl⟩ := h
  exact .ok ⟨⟨t, c, ht, hc, rfl⟩, rfl⟩

theorem addHeat (m : Libm) (fuel : ℕ) (h : SimLike s s') (i : Fin k) (amb minutes : ℚ) :
    SameResult SimLike (s.addHeat m fuel i amb minutes) (s'.addHeat m fuel i amb minutes) :=
  (h.addHeat_cfg m fuel i amb minutes).mono fun _ _ h => h.1

theorem setSetpoint (h : SimLike s s') (hc : ∃ i c, (s.cfg.src i).kind = .condenser c) (x : ℚ) :
    SameResult (fun x y => SimLike x y ∧ x.cfg = s.cfg) (s.setSetpoint x) (s'.setSetpoint x) := by
  have e : s'.newSetpointPossible x = s.newSetpointPossible x := by
    unfold Sim.newSetpointPossible
    obtain ⟨h1, h2⟩ := h.cfg.setpoint hc
    rw [h1, h2, h.cfg.element, h.cfg.heatPump]
    have h3 : s'.setpoint = s.setpoint := by obtain ⟨t, c, -, -, rfl⟩ := h; rfl
    rw [h3]
    cases s.cfg.compressorIndex with
    | none => rfl
    | some j => simp only [(h.src j).kind]
  unfold Sim.setSetpoint
  rw [e]
  split_ifs
  · obtain ⟨t, c, ht, hcc, rfl⟩ := h
    exact .ok ⟨⟨t, c, ht, hcc, rfl⟩, rfl⟩
  · exact .error

theorem addHeatParent (m : Libm) (fuel : ℕ) (h : SimLike s s') (i : Fin k) (amb minutes : ℚ) :
    SameResult SimLike (s.addHeatParent m fuel i amb minutes) (s'.addHeatParent m fuel i amb minutes) := by
  unfold Sim.addHeatParent
  rw [(h.src i).kind]
  cases hk : (s.cfg.src i).kind with
  | resistance w => exact h.addHeat m fuel i amb minutes
  | condenser c =>
    have h3 : s'.setpoint = s.setpoint := by obtain ⟨t, c, -, -, rfl⟩ := h; rfl
    have hex : ∃ i c, (s.cfg.src i).kind = .condenser c := ⟨i, c, hk⟩
    dsimp only
    rw [h3]
    by_cases h1 : amb ≤ c.maxOutAirT ∧ s.setpoint ≥ c.maxOutT
    · rw [if_pos h1, if_pos h1]
      refine .bind (h.setSetpoint hex _) fun x y hxy => ?_
      refine .bind (hxy.1.addHeat_cfg m fuel i amb minutes) fun x' y' hxy' => ?_
      split_ifs
      · exact (hxy'.1.setSetpoint (by rw [hxy'.2, hxy.2]; exact hex) _).mono fun _ _ h => h.1
      · exact .ok hxy'.1
    · rw [if_neg h1, if_neg h1]
      exact h.addHeat m fuel i amb minutes

theorem backupFree (dr : DR) (amb : ℚ) (h : SimLike s s') (b : Fin k) :
    SameResult (fun x y : Sim n k × Bool => SimLike x.1 y.1 ∧ y.2 = x.2) (Sim.backupFree dr amb s b)
      (Sim.backupFree dr amb s' b) := by
  unfold Sim.backupFree
  dsimp only
  rw [(h.src b).kind, h.st]
  cases hk : (s.cfg.src b).kind with
  | condenser c =>
    exact .bind_eq (h.plant.toLockOrUnlock (h.src b) hk _ _) fun x => .ok ⟨h.setSt _ _, rfl⟩
  | resistance w => exact .ok ⟨h, rfl⟩

theorem runBackup (m : Libm) (fuel : ℕ) (dr : DR) (amb : ℚ) (h : SimLike s s') (b : Fin k) (minutes : ℚ) :
    SameResult SimLike (s.runBackup m fuel dr amb b minutes) (s'.runBackup m fuel dr amb b minutes) := by
  unfold Sim.runBackup
  refine .bind (h.backupFree dr amb b) fun x y hxy => ?_
  rw [hxy.2]
  by_cases h1 : x.2 = true
  · rw [if_pos h1, if_pos h1]
    refine .bind (hxy.1.engage dr b) fun a c hac => ?_
    rw [hac.st]
    split_ifs
    · exact hac.addHeatParent m fuel b amb _
    · exact .ok hac
  · rw [if_neg h1, if_neg h1]
    exact .ok hxy.1

theorem follower (h : SimLike s s') (i : Fin k) : s'.follower i = s.follower i := by
  unfold Sim.follower
  rw [(h.src i).followedBy]
  cases (s.cfg.src i).followedBy with
  | none => rfl
  | some f => simp only [h.plant.shutsOff (h.src f)]

theorem afterEarly (m : Libm) (fuel : ℕ) (dr : DR) (amb : ℚ) (h : SimLike s s') (i : Fin k) (minutes : ℚ) :
    SameResult SimLike (s.afterEarly m fuel dr amb i minutes) (s'.afterEarly m fuel dr amb i minutes) := by
  unfold Sim.afterEarly
  have h1 := h.disengage i
  refine .bind_eq (h1.follower i) fun follow => ?_
  cases follow with
  | some f => exact h1.engage dr f
  | none =>
    refine .bind_eq (h1.plant.maxedOut (h.src i)) fun maxed => ?_
    rw [(h.src i).backup]
    cases maxed with
    | false => cases (s.cfg.src i).backup <;> exact .ok h1
    | true =>
      cases (s.cfg.src i).backup with
      | none => exact .ok h1
      | some b => exact h1.runBackup m fuel dr amb b minutes

theorem runSource (m : Libm) (fuel : ℕ) (dr : DR) (amb : ℚ) (h : SimLike s s') (i j : Fin k) (minutes : ℚ) :
    SameResult (fun x y : Sim n k × ℚ => SimLike x.1 y.1 ∧ y.2 = x.2) (s.runSource m fuel dr amb i j minutes)
      (s'.runSource m fuel dr amb i j minutes) := by
  unfold Sim.runSource
  refine .bind (h.addHeatParent m fuel j amb minutes) fun x y hxy => ?_
  rw [hxy.st]
  split_ifs
  · exact .bind (hxy.afterEarly m fuel dr amb i _) fun a b hab => .ok ⟨hab, rfl⟩
  · exact .ok ⟨hxy, rfl⟩

theorem heatBody (m : Libm) (fuel : ℕ) (dr : DR) (amb : ℚ) (h : SimLike s s') (i : Fin k) (minutes : ℚ) :
    SameResult (fun x y : Sim n k × ℚ => SimLike x.1 y.1 ∧ y.2 = x.2) (s.heatBody m fuel dr amb i minutes)
      (s'.heatBody m fuel dr amb i minutes) := by
  unfold Sim.heatBody
  refine .bind (h.applyLocks dr amb i) fun x y hxy => ?_
  rw [hxy.st]
  by_cases h1 : (x.st i).isOn = true
  · rw [if_pos h1, if_pos h1]
    refine .bind (hxy.pickSource dr amb i) fun a b hab => ?_
    rw [hab.2]
    cases a.2 with
    | none => exact .ok ⟨hab.1, rfl⟩
    | some j => exact hab.1.runSource m fuel dr amb i j minutes
  · rw [if_neg h1, if_neg h1]
    exact .ok ⟨hxy, rfl⟩

theorem heatSrcLoop (m : Libm) (fuel : ℕ) (dr : DR) (amb : ℚ) (l : List (Fin k)) (h : SimLike s s') (minutes : ℚ) :
    SameResult SimLike (Sim.heatSrcLoop m fuel dr amb l s minutes) (Sim.heatSrcLoop m fuel dr amb l s' minutes) := by
  induction l generalizing s s' minutes with
  | nil => exact .ok h
  | cons i is ih =>
    unfold Sim.heatSrcLoop
    refine .bind (h.heatBody m fuel dr amb i minutes) fun x y hxy => ?_
    rw [hxy.2]
    exact ih hxy.1 _

theorem control (m : Libm) (fuel : ℕ) (dr : DR) (amb : ℚ) (h : SimLike s s') :
    SameResult SimLike (s.control m fuel dr amb) (s'.control m fuel dr amb) := by
  unfold Sim.control
  refine .bind (R := SimLike) ?_ fun x y hxy => ?_
  · unfold Sim.normalControl
    split_ifs
    · exact .ok h.turnAllOff
    · refine .bind (h.topOff dr) fun a b hab => ?_
      refine .bind (hab.chooseLoop dr _) fun c d hcd => ?_
      rw [h.cfg.minutes]
      exact hcd.heatSrcLoop m fuel dr amb _ _
  · rw [hxy.allOff]
    split_ifs
    · exact .ok (hxy.with_heating false)
    · exact .ok hxy

theorem extraStep (m : Libm) (h : SimLike s s') (w : List ℚ) :
    SameResult SimLike (s.extraStep m w) (s'.extraStep m w) := by
  unfold Sim.extraStep
  split_ifs
  · refine .bind (R := SimLike) ?_ fun x y hxy => ?_
    · unfold Sim.addExtraHeat
      obtain ⟨t, c, ht, hc, rfl⟩ := h
      dsimp only
      rw [ht.nodes, hc.minutes]
      refine .bind_eq rfl fun md => ?_
      refine .bind_eq rfl fun nodes => ?_
      obtain ⟨h1, h2⟩ := ht.extraLoop s.cfg.minutesPerStep nodes (n + 1) le_rfl 0
      rw [h1]
      exact .ok ⟨_, c, h2, hc, rfl⟩
    · refine .bind hxy.plant.updateSoC fun p q hpq => ?_
      obtain ⟨t, ht, rfl⟩ := hpq
      obtain ⟨t0, c, -, hc, rfl⟩ := hxy
      exact .ok ⟨t, c, ht, hc, rfl⟩
  · exact .ok h

theorem trackLocation (h : SimLike s s') (goal : ℚ) : SimLike (s.trackLocation goal) (s'.trackLocation goal) := by
  have hc := h.cfg
  have e : (∃ i, (s'.st i).isOn = true ∧ (s'.st i).lockedOut = false ∧
      (s'.cfg.src i).depressesTemperature = true) ↔ (∃ i, (s.st i).isOn = true ∧ (s.st i).lockedOut = false ∧
      (s.cfg.src i).depressesTemperature = true) := by
    rw [h.st]
    exact exists_congr fun i => by rw [(h.src i).cools]
  unfold Sim.trackLocation
  simp only [e]
  obtain ⟨t, c, ht, hc, rfl⟩ := h
  dsimp only
  rw [hc.depression, hc.maxDepression]
  split_ifs <;> exact ⟨t, c, ht, hc, rfl⟩

theorem settleOutputs (h : SimLike s s') : SimLike s.settleOutputs s'.settleOutputs := by
  obtain ⟨t, c, ht, hc, rfl⟩ := h
  refine ⟨t, c, ht, hc, ?_⟩
  unfold Sim.settleOutputs
  dsimp only
  simp only [(hc.src _).kind, hc.minutes, ht.losses]

theorem updateTimer (h : SimLike s s') (dr : DR) : SimLike (s.updateTimer dr) (s'.updateTimer dr) := by
  obtain ⟨t, c, ht, hc, rfl⟩ := h
  refine ⟨t, c, ht, hc, ?_⟩
  unfold Sim.updateTimer
  dsimp only
  simp only [hc.minutes, hc.timer]

end SimLike

/-- Heaters alike have the same contents and outputs after the outputs are reset. -/
theorem Spec.Alike.resetOutputs {s s' : Sim n k} (h : Alike s s') : SimLike s.resetOutputs s'.resetOutputs := by
  obtain ⟨hc, hs, hm⟩ := h
  refine ⟨s'.resetOutputs.tank, s'.cfg, ⟨hs, hm.nodes, rfl, rfl⟩, hc, ?_⟩
  obtain ⟨m1, m2, m3, m4, m5, m6, m7, m8, m9, m10, m11⟩ := hm
  unfold Sim.resetOutputs
  simp only [m2, m3, m4, m5, m6, m7, m8, m9, m10, m11]

theorem SimLike.alike {s s' : Sim n k} (h : SimLike s s') : Alike s s' ∧ SameOutputs s s' := by
  obtain ⟨t, c, ht, hc, rfl⟩ := h
  exact ⟨⟨hc, ht.shell, ht.nodes, rfl, rfl, rfl, rfl, rfl, fun _ => rfl, fun _ => rfl, rfl, rfl, rfl⟩,
    ht.outlet, ht.losses, rfl, rfl, rfl, rfl, rfl, rfl, fun _ => ⟨rfl, rfl, rfl⟩⟩

theorem runOneStep_like (m : Libm) (fuel : ℕ) {s s' : Sim n k} (h : Alike s s') (u : Sim.StepInput) :
    SameResult SimLike (Sim.runOneStep m fuel s u) (Sim.runOneStep m fuel s' u) := by
  unfold Sim.runOneStep
  have hc := h.settings
  rw [hc.depression, hc.minutes]
  by_cases h1 : s.cfg.doTempDepression = true ∧ s.cfg.minutesPerStep ≠ 1
  · rw [if_pos h1, if_pos h1]; exact .error
  · rw [if_neg h1, if_neg h1]
    have h0 : SimLike (s.resetOutputs.initLocation u.tankAmbient) (s'.resetOutputs.initLocation u.tankAmbient) := by
      obtain ⟨t, c, ht, hcc, e⟩ := h.resetOutputs
      rw [e]
      unfold Sim.initLocation
      dsimp only
      rw [hcc.depression]
      split_ifs
      · exact ⟨t, c, ht, hcc, rfl⟩
      · exact ⟨t, c, ht, hcc, rfl⟩
    have e1 : s'.cfg.hoursPerStep = s.cfg.hoursPerStep := by unfold SimCfg.hoursPerStep; rw [hc.minutes]
    have e2 : s'.cfg.secondsPerStep = s.cfg.secondsPerStep := by unfold SimCfg.secondsPerStep; rw [hc.minutes]
    rw [e1, e2]
    generalize s.resetOutputs.initLocation u.tankAmbient = a at h0
    generalize s'.resetOutputs.initLocation u.tankAmbient = b at h0
    obtain ⟨t, c, ht, hcc, rfl⟩ := h0
    dsimp only
    refine .bind (ht.updateNodes _ _ _ _ _ _ _) fun x y hxy => ?_
    refine .bind (PlantLike.updateSoC ⟨y, hxy, rfl⟩) fun p q hpq => ?_
    obtain ⟨t2, ht2, rfl⟩ := hpq
    refine .bind (SimLike.control m fuel u.dr _ ⟨t2, c, ht2, hcc, rfl⟩) fun x1 y1 h1 => ?_
    refine .bind (h1.extraStep m u.extraHeat_W) fun x2 y2 h2 => ?_
    exact .ok (((h2.trackLocation u.tankAmbient).settleOutputs).updateTimer u.dr)

/-- **C87.** Heaters with the same meaning and the same memory do the same in every step: they end with the same error,
or remember and report the same and have the same meaning again. -/
theorem C87_step (m : Libm) (fuel : ℕ) (s s' : Sim n k) (h : Alike s s') (u : Sim.StepInput) :
    SameResult (fun x y => Alike x y ∧ SameOutputs x y) (Sim.runOneStep m fuel s u) (Sim.runOneStep m fuel s' u) :=
  (runOneStep_like m fuel h u).mono fun _ _ h => h.alike

theorem Spec.Alike.setInletT {s s' : Sim n k} (h : Alike s s') (x : ℚ) : Alike (s.setInletT x) (s'.setInletT x) :=
  ⟨h.settings, h.shell, h.memory.nodes, h.memory.setpoint, rfl, rfl, h.memory.socControl, h.memory.soc, h.memory.on,
    h.memory.locked, h.memory.heating, h.memory.location, h.memory.timer⟩

theorem runLoop_like (m : Libm) (fuel : ℕ) (us : List Sim.RunInput) {s s' : Sim n k} (h : Alike s s')
    (h' : us = [] → SimLike s s') (a : Sim.RunSums k) :
    SameResult (fun x y : Sim n k × Sim.RunSums k => SimLike x.1 y.1 ∧ y.2 = x.2) (Sim.runLoop m fuel us s a)
      (Sim.runLoop m fuel us s' a) := by
  induction us generalizing s s' a with
  | nil => exact .ok ⟨h' rfl, rfl⟩
  | cons u us ih =>
    unfold Sim.runLoop
    refine .bind (runOneStep_like m fuel (h.setInletT u.inletT) u.step) fun x y hxy => ?_
    have e : a.add y u = a.add x u := by
      obtain ⟨t, c, ht, -, rfl⟩ := hxy
      unfold Sim.RunSums.add
      simp only [ht.outlet]
    rw [e]
    exact ih hxy.alike.1 (fun _ => hxy) _

/-- **C87.** … and in every run, whatever the schedules. -/
theorem C87_run (m : Libm) (fuel : ℕ) (s s' : Sim n k) (h : Alike s s') (us : List Sim.RunInput) :
    SameResult (fun x y => Alike x y ∧ SameOutputs x y) (Sim.runNSteps m fuel s us) (Sim.runNSteps m fuel s' us) := by
  unfold Sim.runNSteps
  by_cases hu : us = []
  · subst hu
    exact .error
  · refine .bind (runLoop_like m fuel us h (fun h => absurd h hu) _) fun x y hxy => ?_
    rw [hxy.2]
    split_ifs
    · exact .error
    · obtain ⟨t, c, ht, hc, e⟩ := hxy.1
      refine .ok (SimLike.alike ⟨{ t with outletT := x.2.outlet / x.2.draw }, c, ⟨ht.shell, ht.nodes, rfl, ht.losses⟩,
        hc, ?_⟩)
      rw [e]

end HPWH
