import Verif.Lemmas.MultiPass
import Verif.Props.Mix
import Verif.Spec.SinglePass
import Mathlib.Data.Rat.Floor
import Mathlib.Algebra.Order.Floor.Semiring

/-! Helper lemmas about termination of single-pass external heating. -/

namespace HPWH

open Spec

variable {n k : ℕ}

theorem fractNodes_above (T : Nodes n ℚ) (l : Logic) (a : Bool) (dist : Dist)
    (hk : l.kind = .temp a dist) (o : Fin (n + 1)) (hl : l.LooksAbove o)
    (h : ∀ d, dist = .weighted d → d.Proper) {f la : Fin (n + 1)} {v : ℚ}
    (hf : Logic.fractNodes T dist = .ok (f, la, v)) : o ≤ f := by
  unfold Logic.LooksAbove at hl
  rw [hk] at hl
  cases dist with
  | bottom =>
    simp only at hl
    rw [hl]; exact Fin.zero_le _
  | top =>
    have : Fin.last n = f := by
      have := Except.ok.inj hf
      exact (Prod.mk.inj this).1
    rw [← this]; exact Fin.le_last o
  | weighted d =>
    simp only at hl
    obtain ⟨f', l', h1, h2, -⟩ := fractLoop_spec d (h d rfl) T (n + 1) 0 (by omega) none 0 0 0
      (fun _ j hj => absurd hj (by omega)) (fun f hf => absurd hf (by simp)) (by simp) (by simp)
    unfold Logic.fractNodes at hf
    simp only [h1] at hf
    norm_num at hf
    rw [← hf.1]
    by_contra hc
    exact h2.ne' (hl f' (not_le.mp hc))

/-- The smallest fraction an upper-limit logic asks for while it does not hold. -/
theorem UpperLimit.fract_ge {l : Logic} (hu : l.UpperLimit) (p : Plant n) (hus : l.Usable p)
    (o : Fin (n + 1)) (hl : l.LooksAbove o) (hmono : Monotone p.tank.nodeTs) (hi D : ℚ)
    (hT : ∀ j, p.tank.nodeTs j ≤ hi) (hset : p.setpoint ≤ hi)
    (hDo : hi - p.tank.nodeTs o ≤ D) :
    ∃ f, l.fractToMeet p = .ok f ∧ 0 ≤ f ∧
      (l.holds p ≠ .ok true → ((n : ℚ) + 1) / 12 * min 1 (tolMin / D) ≤ f ∧
        p.tank.nodeTs o ≤ l.comparisonValue p) := by
  obtain ⟨hcmp, a, d, hk⟩ := hu
  have hprop : ∀ d', d = .weighted d' → d'.Proper := by
    intro d' hd'
    unfold Logic.Usable at hus
    rw [hk, hd'] at hus
    exact hus
  obtain ⟨f, la, v, hf, hv, hfl, hb⟩ := fractNodes_spec p.tank.nodeTs d hprop
  obtain ⟨hb1, hb2⟩ := hb hmono
  have hof := fractNodes_above p.tank.nodeTs l a d hk o hl hprop hf
  have hTo : p.tank.nodeTs o ≤ p.tank.nodeTs f := hmono hof
  have htol : (0 : ℚ) < tolMin := by norm_num [tolMin]
  obtain ⟨f', hf'⟩ : ∃ f', l.fractToMeet p = .ok f' := by
    unfold Logic.fractToMeet
    simp only [hk, Logic.tempFract, hf]
    exact ⟨_, rfl⟩
  refine ⟨f', hf', UpperLimit.fract_nonneg ⟨hcmp, a, d, hk⟩ p hf', ?_⟩
  unfold Logic.fractToMeet at hf'
  simp only [hk, Logic.tempFract, hf, hcmp] at hf'
  rw [← Except.ok.inj hf']
  · intro hnot
    have hle : v ≤ l.comparisonValue p := by
      by_contra hc
      apply hnot
      unfold Logic.holds Logic.tankValue
      simp only [hk, hv, hcmp, Cmp.test, decide_eq_true (not_le.mp hc)]
    refine ⟨?_, by linarith⟩
    apply mul_le_mul_of_nonneg_left _ (by positivity)
    have hng : ¬ v > l.comparisonValue p + tolMin := by
      intro hc; linarith
    simp only [Cmp.test, hng, decide_false, Bool.false_eq_true, if_false]
    have htarget : (if h : la.val < n then p.tank.nodeTs ⟨la.val + 1, by omega⟩ else p.setpoint) ≤
        hi := by
      split_ifs
      · exact hT _
      · exact hset
    generalize (if h : la.val < n then p.tank.nodeTs ⟨la.val + 1, by omega⟩ else p.setpoint) = tg
      at htarget
    split_ifs with hpos
    · refine (min_le_right _ _).trans ?_
      have h1 : tolMin / D ≤ tolMin / (tg - p.tank.nodeTs f) := by
        apply div_le_div_of_nonneg_left htol.le hpos
        linarith
      refine h1.trans ?_
      apply div_le_div_of_nonneg_right _ hpos.le
      linarith
    · exact min_le_left _ _

/-- The same for the whole set of shut-off logics. -/
theorem fractToMeetLoop_ge (p : Plant n) (b : ℚ) : ∀ (ls : List Logic) (frac : ℚ),
    (∀ l ∈ ls, ∃ f, l.fractToMeet p = .ok f ∧ b ≤ f) →
    ∃ f, SourceCfg.fractToMeetLoop p ls frac = .ok f ∧ min frac b ≤ f ∧ f ≤ frac := by
  intro ls
  induction ls with
  | nil => intro frac _; exact ⟨frac, rfl, min_le_left _ _, le_rfl⟩
  | cons l ls ih =>
    intro frac h
    obtain ⟨g, hg, hbg⟩ := h l (by simp)
    obtain ⟨f, hf, hbf, hfl⟩ := ih (if g < frac then g else frac) fun l hl => h l (by simp [hl])
    refine ⟨f, ?_, ?_, hfl.trans ?_⟩
    · rw [SourceCfg.fractToMeetLoop, hg]
      exact hf
    · refine le_trans ?_ hbf
      split_ifs
      · exact le_min ((min_le_right _ _).trans hbg) (min_le_right _ _)
      · exact le_rfl
    · split_ifs with hc
      · exact hc.le
      · exact le_rfl

/-- What one single pass does if it does not end the heating. -/
structure SpStep (s : SourceCfg n k) (c : CondCfg) (externalT : ℚ) (a a' : ExtState n)
    (f : ℚ) : Prop where
  cold : a.plant.tank.nodeTs s.externalOutlet < min c.maxSetpoint a.plant.setpoint
  frac : s.fractToMeet a.plant = .ok f
  nodes : a'.plant.tank.nodeTs = ({ a.plant.tank with
      nodeTs := shiftNodes a.plant.tank.nodeTs s.externalOutlet s.externalInlet f
        (min c.maxSetpoint a.plant.setpoint) } : Tank n).mixInversions.nodeTs
  time : ∃ perf, c.getPerformance s.airflowFreedom a.plant.setpoint externalT
      (a.plant.tank.nodeTs s.externalOutlet) = .ok perf ∧
    a'.remaining = a.remaining - f * (a.plant.tank.nodeCp * (min c.maxSetpoint a.plant.setpoint -
      a.plant.tank.nodeTs s.externalOutlet)) / (perf.outputPower_W / 1000 * 60)

theorem spPass_progress (s : SourceCfg n k) (c : CondCfg) (externalT : ℚ) (p : Plant n)
    (a : ExtState n) (he : Evaluable s c externalT p) (hs : p.SameSettings a.plant)
    (hcp : 0 < p.tank.nodeCp) (hv : p.tank.volume_L ≠ 0) (hrem : 0 < a.remaining) (f : ℚ)
    (hf : s.fractToMeet a.plant = .ok f) (hf1 : f ≤ 1) (hsp : c.isMultipass = false)
    (hlow : ∃ j, p.tank.nodeTs j ≤ a.plant.tank.nodeTs s.externalOutlet) :
    ∃ r, spPass s c externalT a = .ok r ∧
      ∀ a', r = some a' → 0 < a'.remaining → SpStep s c externalT a a' f := by
  obtain ⟨perf, hperf⟩ := he.perf (a.plant.tank.nodeTs s.externalOutlet)
  unfold spPass
  dsimp only
  have hset : a.plant.setpoint = p.setpoint := hs.2.1
  rw [hset, hperf, ← hset]
  simp only [bind, Except.bind]
  set outletT := a.plant.tank.nodeTs s.externalOutlet with hout
  set target := min c.maxSetpoint a.plant.setpoint with htarget
  by_cases hd : target - outletT ≤ 0
  · rw [if_pos hd]
    exact ⟨none, rfl, fun a' h => absurd h (by simp)⟩
  rw [if_neg hd, hf]
  simp only
  have hd' : 0 < target - outletT := not_le.mp hd
  have hpos := he.pos _ _ ⟨hlow, fun _ => by rw [← hset]; exact sub_pos.mp hd'⟩ hperf
  have hcpa : a.plant.tank.nodeCp = p.tank.nodeCp := hs.cp
  have hheat : 0 < a.plant.tank.nodeCp * (target - outletT) := by
    rw [hcpa]; exact mul_pos hcp hd'
  set nodeHeat := a.plant.tank.nodeCp * (target - outletT) with hnh
  have hcap : 0 < Units.W_TO_KW perf.outputPower_W * (a.remaining * Units.secPerMin) := by
    unfold Units.W_TO_KW Units.secPerMin; positivity
  set capacity := Units.W_TO_KW perf.outputPower_W * (a.remaining * Units.secPerMin) with hcapdef
  set frac0 := if capacity < nodeHeat then capacity / nodeHeat else 1 with hf0
  set needed0 := if capacity < nodeHeat then capacity else nodeHeat with hn0
  set frac := if f < frac0 then f else frac0 with hfr
  set needed := if f < frac0 then f * nodeHeat else needed0 with hnd
  have hnan : ¬ (capacity > needed ∧ capacity = 0) := fun hc => hcap.ne' hc.2
  rw [if_neg hnan]
  set time := if capacity > needed then a.remaining * (needed / capacity) else a.remaining with htime
  set rem' := if capacity > needed then a.remaining - time else 0 with hrem'
  obtain ⟨r, hr⟩ := extFinishPass_ok s c a.plant a.net perf frac target time rem'
    (he.soc.congr hs)
  rw [hr]
  refine ⟨some r, rfl, ?_⟩
  intro a' ha' hpos'
  have ha' : r = a' := Option.some.inj ha'
  subst ha'
  obtain ⟨e1, e2, -, -, e5, -⟩ := extFinishPass_spec s c a.plant a.net perf frac target time
    rem' r (by rw [hs.volume]; exact hv) hr
  rw [e2] at hpos'
  have hgt : capacity > needed := by
    by_contra hc
    rw [hrem', if_neg hc] at hpos'
    exact lt_irrefl _ hpos'
  have hfracf : frac = f ∧ needed = f * nodeHeat := by
    by_cases hlt : f < frac0
    · exact ⟨by rw [hfr, if_pos hlt], by rw [hnd, if_pos hlt]⟩
    · have hnl : ¬ capacity < nodeHeat := by
        intro hc
        rw [hnd, if_neg hlt, hn0, if_pos hc] at hgt
        exact lt_irrefl _ hgt
      have h1 : frac0 = 1 := by rw [hf0, if_neg hnl]
      have h2 : f = 1 := le_antisymm hf1 (by rw [h1] at hlt; exact not_lt.mp hlt)
      refine ⟨by rw [hfr, if_neg hlt, h1, h2], by rw [hnd, if_neg hlt, hn0, if_neg hnl, h2, one_mul]⟩
  refine ⟨sub_pos.mp hd', hf, ?_, perf, by rw [hset]; exact hperf, ?_⟩
  · rw [e5, hfracf.1]
  · rw [e2, hrem', if_pos hgt, htime, if_pos hgt, hfracf.2, hcapdef]
    unfold Units.W_TO_KW Units.secPerMin
    have := hrem.ne'
    have := hpos.ne'
    field_simp
    rw [hnh, htarget, hout]
    ring

/-- A state of the single-pass loop from which another pass is made. -/
structure Cont (s : SourceCfg n k) (c : CondCfg) (externalT period : ℚ) (p : Plant n)
    (a : ExtState n) : Prop where
  inv : ExtInv s c externalT period p a
  rem : 0 < a.remaining
  off : s.shutsOff a.plant = .ok false
  mono : Monotone a.plant.tank.nodeTs

/-- The settings under which termination is shown. -/
structure SpSettings (s : SourceCfg n k) (c : CondCfg) (externalT : ℚ) (p : Plant n) : Prop where
  eval : Evaluable s c externalT p
  cp : 0 < p.tank.nodeCp
  volume : p.tank.volume_L ≠ 0
  order : s.externalOutlet ≤ s.externalInlet
  limits : ∀ l ∈ s.shutOff, l.UpperLimit
  above : ∀ l ∈ s.shutOff, l.LooksAbove s.externalOutlet
  mixing : p.tank.doInversionMixing = true
  single : c.isMultipass = false

theorem SpSettings.fract (s : SourceCfg n k) (c : CondCfg) (externalT : ℚ) (p : Plant n)
    (hs : SpSettings s c externalT p) (q : Plant n) (hq : p.SameSettings q)
    (hmono : Monotone q.tank.nodeTs) (hi D : ℚ) (hT : ∀ j, q.tank.nodeTs j ≤ hi)
    (hset : q.setpoint ≤ hi) (hDo : hi - q.tank.nodeTs s.externalOutlet ≤ D) :
    ∃ f, s.fractToMeet q = .ok f ∧ 0 ≤ f ∧ f ≤ 1 ∧
      (s.shutsOff q = .ok false → min 1 (((n : ℚ) + 1) / 12 * min 1 (tolMin / D)) ≤ f) := by
  have key := fun l (hl : l ∈ s.shutOff) => UpperLimit.fract_ge (hs.limits l hl) q
    ((hs.eval.logics l hl).congr hq) s.externalOutlet (hs.above l hl) hmono hi D hT hset hDo
  obtain ⟨f, hf, hf0, hf1⟩ := fractToMeetLoop_ge q 0 s.shutOff 1 fun l hl => by
    obtain ⟨g, h1, h2, -⟩ := key l hl
    exact ⟨g, h1, h2⟩
  refine ⟨f, hf, by simpa using hf0, hf1, fun hoff => ?_⟩
  obtain ⟨f', hf', hb, -⟩ := fractToMeetLoop_ge q (((n : ℚ) + 1) / 12 * min 1 (tolMin / D))
    s.shutOff 1 fun l hl => by
      obtain ⟨g, h1, -, h3⟩ := key l hl
      exact ⟨g, h1, (h3 ((shutsOff_false s q hoff).2 l hl)).1⟩
  rw [hf] at hf'
  rw [Except.ok.inj hf']
  exact hb

/-- If every state reached by another pass finishes, so does this one. -/
theorem Cont.step (s : SourceCfg n k) (c : CondCfg) (externalT period : ℚ) (p : Plant n)
    (hs : SpSettings s c externalT p) (a : ExtState n) (inv : ExtInv s c externalT period p a)
    (hrem : 0 < a.remaining) (hmono : Monotone a.plant.tank.nodeTs)
    (ih : ∀ b f, Cont s c externalT period p b → SpStep s c externalT a b f →
      ∃ fuel r, spLoop s c externalT fuel b = .ok r) :
    ∃ fuel r, spLoop s c externalT fuel a = .ok r := by
  set hi := max (maxWeight a.plant.tank.nodeTs) a.plant.setpoint
  have hT : ∀ j, a.plant.tank.nodeTs j ≤ hi := fun j => (le_maxWeight _ j).trans (le_max_left _ _)
  obtain ⟨f, hf, hf0, hf1, -⟩ := hs.fract s c externalT p a.plant inv.same hmono hi
    (hi - a.plant.tank.nodeTs s.externalOutlet + 1) hT (le_max_right _ _)
    (by linarith)
  obtain ⟨r, hr, hstep⟩ := spPass_progress s c externalT p a hs.eval inv.same hs.cp hs.volume hrem f
    hf hf1 hs.single (exists_node_le _ _ fun lo hlo => inv.lower lo hlo _)
  cases r with
  | none =>
    refine ⟨1, a, ?_⟩
    rw [spLoop, hr]; rfl
  | some b =>
    by_cases hb : 0 < b.remaining
    · have ib := spPass_inv s c externalT period p a b hs.cp hs.volume hs.order hs.eval.pos hs.single
        (fun g hg => by rw [hf] at hg; rw [← Except.ok.inj hg]; exact hf0) inv hr
      have hst := hstep b rfl hb
      obtain ⟨off, hoff⟩ := shutsOff_ok s b.plant fun l hl => (hs.eval.logics l hl).congr ib.same
      cases off with
      | true =>
        refine ⟨1, b, ?_⟩
        rw [spLoop, hr]
        simp only [bind, Except.bind, gt_iff_lt, hb, if_true, hoff]
        rfl
      | false =>
        have hm : Monotone b.plant.tank.nodeTs := by
          rw [hst.nodes]
          apply Tank.mixInversions_nodes_monotone
          change a.plant.tank.doInversionMixing = true
          rw [inv.same.1]
          exact hs.mixing
        obtain ⟨fuel, r, hr'⟩ := ih b f ⟨ib, hb, hoff, hm⟩ hst
        refine ⟨fuel + 1, r, ?_⟩
        rw [spLoop, hr]
        simp only [bind, Except.bind, gt_iff_lt, hb, if_true, hoff, Bool.false_eq_true, if_false]
        exact hr'
    · refine ⟨1, b, ?_⟩
      rw [spLoop, hr]
      simp only [bind, Except.bind, gt_iff_lt, hb, if_false]
      rfl

/-! ## A limit below the temperature of the heated water: time runs out -/

theorem spLoop_finishes_below (s : SourceCfg n k) (c : CondCfg) (externalT period : ℚ) (p : Plant n)
    (hs : SpSettings s c externalT p) (Pmax : ℚ)
    (hP0 : ∀ w perf, p.MayDraw c w →
      c.getPerformance s.airflowFreedom p.setpoint externalT w = .ok perf → perf.outputPower_W ≤ Pmax)
    (l : Logic) (hl : l ∈ s.shutOff) (hlim : l.comparisonValue p < min c.maxSetpoint p.setpoint) :
    ∀ a, Cont s c externalT period p a → ∃ fuel r, spLoop s c externalT fuel a = .ok r := by
  set lo := -maxWeight (fun j => -p.tank.nodeTs j)
  have hlo : ∀ j, lo ≤ p.tank.nodeTs j := fun j => by
    have := le_maxWeight (fun j => -p.tank.nodeTs j) j
    simp only [lo]; linarith
  set hi := max (maxWeight p.tank.nodeTs) p.setpoint
  have hhi : ∀ j, p.tank.nodeTs j ≤ hi := fun j => (le_maxWeight _ j).trans (le_max_left _ _)
  have hlohi : lo ≤ hi := (hlo 0).trans (hhi 0)
  set D := hi - lo + 1
  have hD : 0 < D := by simp only [D]; linarith
  set φ := min 1 (((n : ℚ) + 1) / 12 * min 1 (tolMin / D))
  have hφ : 0 < φ := by
    have htol : (0 : ℚ) < tolMin := by norm_num [tolMin]
    refine lt_min one_pos ?_
    exact mul_pos (by positivity) (lt_min one_pos (by positivity))
  set τ := min c.maxSetpoint p.setpoint
  obtain ⟨Pm, hPm, hP⟩ : ∃ Pm : ℚ, 0 < Pm ∧ ∀ w perf, p.MayDraw c w →
      c.getPerformance s.airflowFreedom p.setpoint externalT w = .ok perf → perf.outputPower_W ≤ Pm :=
    ⟨max Pmax 1, lt_max_of_lt_right one_pos, fun w perf h1 h2 =>
      (hP0 w perf h1 h2).trans (le_max_left _ _)⟩
  set δ := φ * (p.tank.nodeCp * (τ - l.comparisonValue p)) / (Pm / 1000 * 60)
  have hcp := hs.cp
  have hδ : 0 < δ := by
    have : 0 < τ - l.comparisonValue p := sub_pos.mpr hlim
    positivity
  have main : ∀ (m : ℕ) (a : ExtState n), a.remaining ≤ m * δ → Cont s c externalT period p a →
      ∃ fuel r, spLoop s c externalT fuel a = .ok r := by
    intro m
    induction m with
    | zero =>
      intro a h ha
      exfalso
      have := ha.rem
      simp at h
      linarith
    | succ m ih =>
      intro a h ha
      refine Cont.step s c externalT period p hs a ha.inv ha.rem ha.mono fun b f hb hst => ?_
      apply ih b _ hb
      obtain ⟨perf, hperf, htime⟩ := hst.time
      have hbnd := ha.inv.bounds hs.single lo hi (fun j => ⟨hlo j, hhi j⟩)
        ((min_le_right _ _).trans (le_max_right _ _))
      have hset : a.plant.setpoint = p.setpoint := ha.inv.same.2.1
      obtain ⟨g, hg, hg0, hg1, hgb⟩ := hs.fract s c externalT p a.plant ha.inv.same ha.mono hi D
        (fun j => (hbnd j).2) (by rw [hset]; exact le_max_right _ _)
        (by have := (hbnd s.externalOutlet).1; simp only [D]; linarith)
      have hfg : f = g := by
        have := hst.frac
        rw [hg] at this
        exact (Except.ok.inj this).symm
      subst hfg
      have hfφ : φ ≤ f := hgb ha.off
      have hTo : a.plant.tank.nodeTs s.externalOutlet ≤ l.comparisonValue p := by
        obtain ⟨_, _, _, h4⟩ := UpperLimit.fract_ge (hs.limits l hl) a.plant
          ((hs.eval.logics l hl).congr ha.inv.same) s.externalOutlet (hs.above l hl) ha.mono hi D
          (fun j => (hbnd j).2) (by rw [hset]; exact le_max_right _ _)
          (by have := (hbnd s.externalOutlet).1; simp only [D]; linarith)
        have := (h4 ((shutsOff_false s a.plant ha.off).2 l hl)).2
        have e : l.comparisonValue a.plant = l.comparisonValue p := by
          unfold Logic.comparisonValue; rw [hset]
        rwa [e] at this
      have hmay : p.MayDraw c (a.plant.tank.nodeTs s.externalOutlet) :=
        ⟨exists_node_le _ _ fun lo hlo => ha.inv.lower lo hlo _, fun _ => by
          have := hst.cold; rwa [hset] at this⟩
      rw [hset] at hperf
      have hpp := hs.eval.pos _ _ hmay hperf
      have hppm := hP _ _ hmay hperf
      have hge : δ ≤ f * (a.plant.tank.nodeCp * (min c.maxSetpoint a.plant.setpoint -
          a.plant.tank.nodeTs s.externalOutlet)) / (perf.outputPower_W / 1000 * 60) := by
        rw [hset, ha.inv.same.cp]
        have h1 : τ - l.comparisonValue p ≤ τ - a.plant.tank.nodeTs s.externalOutlet := by linarith
        have h0 : 0 ≤ τ - l.comparisonValue p := (sub_pos.mpr hlim).le
        have h2 : φ * (p.tank.nodeCp * (τ - l.comparisonValue p)) ≤
            f * (p.tank.nodeCp * (τ - a.plant.tank.nodeTs s.externalOutlet)) := by
          apply mul_le_mul hfφ (mul_le_mul_of_nonneg_left h1 hcp.le) (by positivity) hg0
        have h3 : 0 ≤ f * (p.tank.nodeCp * (τ - a.plant.tank.nodeTs s.externalOutlet)) := by
          have := hφ.le
          refine le_trans ?_ h2
          positivity
        exact div_le_div₀ h3 h2 (by positivity) (by linarith)
      rw [htime]
      push_cast at h
      linarith
  intro a ha
  exact main ⌈a.remaining / δ⌉₊ a ((div_le_iff₀ hδ).mp (Nat.le_ceil _)) ha

/-! ## Heating the tank through: the outlet reaches the temperature of the heated water -/

theorem shiftNodes_monotone (T : Nodes n ℚ) (o : Fin (n + 1)) (f τ : ℚ) (hf0 : 0 ≤ f) (hf1 : f ≤ 1)
    (hT : Monotone T) (hτ : ∀ j, T j ≤ τ) : Monotone (shiftNodes T o (Fin.last n) f τ) := by
  have up : ∀ j, T j ≤ shiftNodes T o (Fin.last n) f τ j := by
    intro j
    unfold shiftNodes
    split_ifs with h hj
    · nlinarith [hτ j]
    · have := hT (show j ≤ ⟨j.val + 1, by
        have h2 : j.val ≠ n := fun hc => hj (Fin.ext hc)
        omega⟩ from by rw [Fin.le_def]; simp)
      nlinarith
    · exact le_rfl
  rw [Fin.monotone_iff_le_succ]
  intro i
  by_cases hc : o ≤ i.castSucc
  · have hle : shiftNodes T o (Fin.last n) f τ i.castSucc = (1 - f) * T i.castSucc + f * T i.succ := by
      unfold shiftNodes
      rw [dif_pos ⟨hc, Fin.le_last _⟩, dif_neg (Fin.castSucc_lt_last i).ne]
      rfl
    rw [hle]
    have h1 : T i.castSucc ≤ T i.succ := hT (Fin.castSucc_lt_succ).le
    refine le_trans ?_ (up i.succ)
    nlinarith
  · have hle : shiftNodes T o (Fin.last n) f τ i.castSucc = T i.castSucc := by
      unfold shiftNodes
      rw [dif_neg fun h => hc h.1]
    rw [hle]
    exact (hT (Fin.castSucc_lt_succ).le).trans (up i.succ)

theorem spLoop_finishes_through (s : SourceCfg n k) (c : CondCfg) (externalT period : ℚ)
    (p : Plant n) (hs : SpSettings s c externalT p) (hin : s.externalInlet = Fin.last n)
    (hn : 12 ≤ n + 1) (hset : p.setpoint ≤ c.maxSetpoint) (hmax : ∀ j, p.tank.nodeTs j ≤ p.setpoint) :
    ∀ a, Cont s c externalT period p a → ∃ fuel r, spLoop s c externalT fuel a = .ok r := by
  have hτ : min c.maxSetpoint p.setpoint = p.setpoint := min_eq_right hset
  set lo := -maxWeight (fun j => -p.tank.nodeTs j)
  have hlo : ∀ j, lo ≤ p.tank.nodeTs j := fun j => by
    have := le_maxWeight (fun j => -p.tank.nodeTs j) j
    simp only [lo]; linarith
  have hN : (12 : ℚ) ≤ (n : ℚ) + 1 := by exact_mod_cast hn
  have htol : (0 : ℚ) < tolMin := by norm_num [tolMin]
  have same : ∀ a, Cont s c externalT period p a → a.plant.setpoint = p.setpoint ∧
      (∀ j, lo ≤ a.plant.tank.nodeTs j ∧ a.plant.tank.nodeTs j ≤ p.setpoint) := fun a ha =>
    ⟨ha.inv.same.2.1, ha.inv.bounds hs.single lo p.setpoint (fun j => ⟨hlo j, hmax j⟩) hτ.le⟩
  -- the profile after a pass
  have after : ∀ a b f, Cont s c externalT period p a → SpStep s c externalT a b f →
      0 ≤ f → f ≤ 1 → b.plant.tank.nodeTs =
        shiftNodes a.plant.tank.nodeTs s.externalOutlet (Fin.last n) f p.setpoint := by
    intro a b f ha hst hf0 hf1
    obtain ⟨h1, h2⟩ := same a ha
    rw [hst.nodes, hin, h1, hτ]
    have hm := shiftNodes_monotone a.plant.tank.nodeTs s.externalOutlet f p.setpoint hf0 hf1 ha.mono
      fun j => (h2 j).2
    rw [(C02_mixing_idempotent _).1 ((stratified_iff_monotone _).mpr hm)]
  -- the last phase: whole nodes are moved
  have last : ∀ (m : ℕ) (a : ExtState n), Cont s c externalT period p a →
      p.setpoint - a.plant.tank.nodeTs s.externalOutlet ≤ tolMin →
      (∀ j : Fin (n + 1), s.externalOutlet.val + m ≤ j.val → p.setpoint ≤ a.plant.tank.nodeTs j) →
      ∃ fuel r, spLoop s c externalT fuel a = .ok r := by
    intro m
    induction m with
    | zero =>
      intro a ha _ hm
      refine Cont.step s c externalT period p hs a ha.inv ha.rem ha.mono fun b f hb hst => ?_
      exfalso
      have h1 := hst.cold
      rw [(same a ha).1, hτ] at h1
      exact absurd (hm s.externalOutlet (by omega)) (not_le.mpr h1)
    | succ m ih =>
      intro a ha hG hm
      refine Cont.step s c externalT period p hs a ha.inv ha.rem ha.mono fun b f hb hst => ?_
      obtain ⟨h1, h2⟩ := same a ha
      obtain ⟨g, hg, hg0, hg1, hgb⟩ := hs.fract s c externalT p a.plant ha.inv.same ha.mono
        p.setpoint tolMin (fun j => (h2 j).2) h1.le hG
      have hfg : f = g := by
        have := hst.frac
        rw [hg] at this
        exact (Except.ok.inj this).symm
      subst hfg
      have hone : f = 1 := by
        apply le_antisymm hg1
        refine le_trans ?_ (hgb ha.off)
        rw [div_self htol.ne', min_self, mul_one]
        refine le_min le_rfl ?_
        linarith
      have hT := after a b f ha hst hg0 hg1
      have hmono_o : a.plant.tank.nodeTs s.externalOutlet ≤ b.plant.tank.nodeTs s.externalOutlet := by
        rw [hT, hone]
        unfold shiftNodes
        rw [dif_pos ⟨le_rfl, Fin.le_last _⟩]
        split_ifs with hj
        · have := (h2 s.externalOutlet).2
          linarith
        · have hv : s.externalOutlet.val ≠ n := fun hc => hj (Fin.ext hc)
          have := ha.mono (show s.externalOutlet ≤ ⟨s.externalOutlet.val + 1, by omega⟩ from by
            rw [Fin.le_def]; simp)
          linarith
      apply ih b hb (by linarith)
      intro j hj
      rw [hT, hone]
      unfold shiftNodes
      have hoj : s.externalOutlet ≤ j := by rw [Fin.le_def]; omega
      rw [dif_pos ⟨hoj, Fin.le_last _⟩]
      split_ifs with hjl
      · linarith
      · have hv : j.val ≠ n := fun hc => hjl (Fin.ext hc)
        have := hm ⟨j.val + 1, by omega⟩ (by simp only; omega)
        linarith
  -- the first phase: the cold part of the tank shrinks by a fixed amount
  set D := p.setpoint - lo + 1
  have hD : 0 < D := by
    have := (hlo 0).trans (hmax 0)
    simp only [D]; linarith
  set φ := min 1 (((n : ℚ) + 1) / 12 * min 1 (tolMin / D))
  have hφ : 0 < φ := by
    refine lt_min one_pos ?_
    exact mul_pos (by positivity) (lt_min one_pos (by positivity))
  set ε := φ * tolMin
  have hε : 0 < ε := mul_pos hφ htol
  have first : ∀ (m : ℕ) (a : ExtState n), Cont s c externalT period p a →
      ∑ j, (p.setpoint - a.plant.tank.nodeTs j) ≤ m * ε →
      ∃ fuel r, spLoop s c externalT fuel a = .ok r := by
    intro m
    induction m with
    | zero =>
      intro a ha h
      obtain ⟨h1, h2⟩ := same a ha
      apply last 0 a ha
      · have hle : p.setpoint - a.plant.tank.nodeTs s.externalOutlet ≤
            ∑ j, (p.setpoint - a.plant.tank.nodeTs j) :=
          Finset.single_le_sum (f := fun j => p.setpoint - a.plant.tank.nodeTs j)
            (fun j _ => sub_nonneg.mpr (h2 j).2) (Finset.mem_univ _)
        simp at h hle
        linarith
      · intro j _
        have hle : p.setpoint - a.plant.tank.nodeTs j ≤
            ∑ j, (p.setpoint - a.plant.tank.nodeTs j) :=
          Finset.single_le_sum (f := fun j => p.setpoint - a.plant.tank.nodeTs j)
            (fun j _ => sub_nonneg.mpr (h2 j).2) (Finset.mem_univ _)
        simp at h hle
        linarith
    | succ m ih =>
      intro a ha h
      obtain ⟨h1, h2⟩ := same a ha
      by_cases hG : p.setpoint - a.plant.tank.nodeTs s.externalOutlet ≤ tolMin
      · exact last (n + 1) a ha hG fun j hj => by have := j.isLt; omega
      refine Cont.step s c externalT period p hs a ha.inv ha.rem ha.mono fun b f hb hst => ?_
      apply ih b hb
      obtain ⟨g, hg, hg0, hg1, hgb⟩ := hs.fract s c externalT p a.plant ha.inv.same ha.mono
        p.setpoint D (fun j => (h2 j).2) h1.le
        (by have := (h2 s.externalOutlet).1; simp only [D]; linarith)
      have hfg : f = g := by
        have := hst.frac
        rw [hg] at this
        exact (Except.ok.inj this).symm
      subst hfg
      have hfφ : φ ≤ f := hgb ha.off
      have hT := after a b f ha hst hg0 hg1
      rw [Finset.sum_sub_distrib] at h ⊢
      rw [hT, shiftNodes_sum _ _ _ (Fin.le_last _)]
      push_cast at h
      have h3 : φ * tolMin ≤ f * (p.setpoint - a.plant.tank.nodeTs s.externalOutlet) :=
        mul_le_mul hfφ (not_le.mp hG).le htol.le hg0
      simp only [ε] at h ⊢
      linarith
  intro a ha
  exact first ⌈(∑ j, (p.setpoint - a.plant.tank.nodeTs j)) / ε⌉₊ a ha
    ((div_le_iff₀ hε).mp (Nat.le_ceil _))

end HPWH
