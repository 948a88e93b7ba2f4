import Verif.Lemmas.SinglePass
import Verif.Lemmas.Frame

/-! Helper lemmas about termination of single-pass external heating under a limit on the state of
charge. -/

namespace HPWH

open Spec

variable {n k : ℕ}

/-- The smallest fraction a logic on the state of charge asks for while it does not hold. -/
theorem soc_fract_ge {l : Logic} {minU hyst constM : ℚ} {useC : Bool}
    (hk : l.kind = .soc minU hyst useC constM) (p : Plant n) (hus : l.Usable p)
    (hcmp : l.cmp = .greater) (hm : p.mainsT useC constM < minU) (hset : minU ≤ p.setpoint)
    (hnot : l.holds p ≠ .ok true) : ∃ f, l.fractToMeet p = .ok f ∧ tolMin ≤ f := by
  have htol : (0 : ℚ) < tolMin := by norm_num [tolMin]
  have htol1 : tolMin ≤ (1 : ℚ) := by norm_num [tolMin]
  have hv : l.tankValue p = .ok p.soc := by
    unfold Logic.tankValue
    unfold Logic.Usable at hus
    rw [hk] at hus
    simp only [hk]
    simp only at hus
    rw [if_neg]
    rintro ⟨h1, h2⟩
    rcases hus with h | h
    · rw [h1] at h; exact absurd h (by decide)
    · rw [h2] at h; exact absurd h (by decide)
  have hdelta : tolMin ≤ l.comparisonValue p + tolMin - p.soc := by
    have : ¬ p.soc > l.comparisonValue p := by
      intro hc
      apply hnot
      unfold Logic.holds
      rw [hv, hcmp]
      simp only [Cmp.test, decide_eq_true hc]
    linarith [not_lt.mp this]
  unfold Logic.fractToMeet
  simp only [hk, Logic.socFract, hv]
  by_cases hbig : l.comparisonValue p + tolMin - p.soc ≥ 1 / ((n : ℚ) + 1)
  · rw [if_pos hbig]
    exact ⟨1, rfl, htol1⟩
  rw [if_neg hbig]
  by_cases hnode : Logic.lastUseful p.tank.nodeTs minU (n + 1) le_rfl < n + 1
  swap
  · rw [dif_neg hnode]
    exact ⟨1, rfl, htol1⟩
  rw [dif_pos hnode]
  have hne : minU - p.mainsT useC constM ≠ 0 := by intro h0; linarith
  have hch : chargePerNode (p.mainsT useC constM) minU p.setpoint =
      .ok ((p.setpoint - p.mainsT useC constM) / (minU - p.mainsT useC constM)) := by
    unfold chargePerNode
    rw [if_neg (not_lt.mpr hset), if_neg hne]
  simp only [hch]
  rw [if_neg hne]
  obtain ⟨-, hl2, hl3⟩ := lastUseful_spec p.tank.nodeTs minU (n + 1) le_rfl
  set m := Logic.lastUseful p.tank.nodeTs minU (n + 1) le_rfl with hmdef
  have hTm : minU ≤ p.tank.nodeTs ⟨m, hnode⟩ := hl2 ⟨m, hnode⟩ hnode le_rfl
  have hcalc : tolMin ≤ (if p.tank.nodeTs ⟨m, hnode⟩ ≥ p.setpoint then (1 : ℚ) else
      (((l.comparisonValue p + tolMin - p.soc) * (((n : ℚ) + 1) *
        ((p.setpoint - p.mainsT useC constM) / (minU - p.mainsT useC constM))) +
        (p.tank.nodeTs ⟨m, hnode⟩ - p.mainsT useC constM) / (minU - p.mainsT useC constM)) *
        (minU - p.mainsT useC constM) + p.mainsT useC constM - p.tank.nodeTs ⟨m, hnode⟩) /
        (p.setpoint - p.tank.nodeTs ⟨m, hnode⟩)) := by
    split_ifs with hge
    · exact htol1
    · have e : (((l.comparisonValue p + tolMin - p.soc) * (((n : ℚ) + 1) *
          ((p.setpoint - p.mainsT useC constM) / (minU - p.mainsT useC constM))) +
        (p.tank.nodeTs ⟨m, hnode⟩ - p.mainsT useC constM) / (minU - p.mainsT useC constM)) *
        (minU - p.mainsT useC constM) + p.mainsT useC constM - p.tank.nodeTs ⟨m, hnode⟩) =
        (l.comparisonValue p + tolMin - p.soc) * (((n : ℚ) + 1) *
          (p.setpoint - p.mainsT useC constM)) := by
        field_simp
        ring
      rw [e, le_div_iff₀ (by linarith [not_le.mp hge])]
      have h1 : p.setpoint - p.tank.nodeTs ⟨m, hnode⟩ ≤
          ((n : ℚ) + 1) * (p.setpoint - p.mainsT useC constM) := by
        have hn : (0 : ℚ) ≤ n := Nat.cast_nonneg n
        have h2 : 0 ≤ p.setpoint - p.mainsT useC constM := by linarith
        nlinarith
      exact mul_le_mul hdelta h1 (by linarith [not_le.mp hge]) (htol.le.trans hdelta)
  by_cases h0 : m = 0
  · rw [dif_pos h0]
    exact ⟨_, rfl, hcalc⟩
  · rw [dif_neg h0]
    have hb := hl3 (Nat.pos_of_ne_zero h0) (by omega)
    have h1 : 0 ≤ minU - p.tank.nodeTs ⟨m - 1, by omega⟩ := by linarith
    have h2 : 0 < p.tank.nodeTs ⟨m, hnode⟩ - p.tank.nodeTs ⟨m - 1, by omega⟩ := by linarith
    rw [if_neg h2.ne']
    refine ⟨_, rfl, le_min hcalc ?_⟩
    have := div_nonneg h1 h2.le
    linarith

/-- A tank whose coldest node is useful has at least the charge of a tank all of that temperature. -/
theorem soc_ge_uniform (T : Nodes n ℚ) (mains minU tMax x soc : ℚ) (hm : mains < minU)
    (hset : minU ≤ tMax) (hx : minU ≤ x) (hT : ∀ j, x ≤ T j)
    (h : calcSoCFraction T mains minU tMax = .ok soc) :
    (x - mains) / (tMax - mains) ≤ soc := by
  have hpos : 0 < minU - mains := sub_pos.mpr hm
  have hpos' : 0 < tMax - mains := by linarith
  unfold calcSoCFraction chargePerNode at h
  rw [if_neg (not_lt.mpr hset), if_neg hpos.ne'] at h
  simp only at h
  split_ifs at h with hc
  rw [← Except.ok.inj h]
  have hsum : ((n : ℚ) + 1) * ((x - mains) / (minU - mains)) ≤ Plant.chargeSum T mains minU := by
    have : ∑ _j : Fin (n + 1), (x - mains) / (minU - mains) ≤ Plant.chargeSum T mains minU := by
      unfold Plant.chargeSum
      apply Finset.sum_le_sum
      intro j _
      have := hT j
      rw [if_neg (not_lt.mpr (hx.trans this))]
      apply div_le_div_of_nonneg_right _ hpos.le
      linarith
    simpa using this
  have hN : (0 : ℚ) < (n : ℚ) + 1 := by positivity
  rw [le_div_iff₀ (mul_pos hN (div_pos hpos' hpos))]
  refine le_trans (le_of_eq ?_) hsum
  field_simp

/-- The state of charge is that of the tank. -/
def Fresh (p : Plant n) : Prop := p.updateSoC = .ok p

theorem updateSoC_none {p : Plant n} (h : p.socControl = none) : p.updateSoC = .ok p := by
  unfold Plant.updateSoC; rw [h]

theorem updateSoC_some {p : Plant n} {c : SoCParams} (h : p.socControl = some c) :
    p.updateSoC = (calcSoCFraction p.tank.nodeTs (p.mainsT c.useConstantMains c.constantMains)
      c.tempMinUseful p.setpoint).map fun x => { p with soc := x } := by
  unfold Plant.updateSoC
  rw [h]
  dsimp only
  cases calcSoCFraction p.tank.nodeTs (p.mainsT c.useConstantMains c.constantMains)
      c.tempMinUseful p.setpoint with
  | error e => rfl
  | ok x => simp only [Except.map]

theorem fresh_of_soc {p : Plant n} {c : SoCParams} (h : p.socControl = some c)
    (hv : calcSoCFraction p.tank.nodeTs (p.mainsT c.useConstantMains c.constantMains)
      c.tempMinUseful p.setpoint = .ok p.soc) : Fresh p := by
  unfold Fresh
  rw [updateSoC_some h, hv]
  rfl

theorem Fresh.soc {p : Plant n} {c : SoCParams} (h : p.socControl = some c) (hf : Fresh p) :
    calcSoCFraction p.tank.nodeTs (p.mainsT c.useConstantMains c.constantMains)
      c.tempMinUseful p.setpoint = .ok p.soc := by
  unfold Fresh at hf
  rw [updateSoC_some h] at hf
  cases hv : calcSoCFraction p.tank.nodeTs (p.mainsT c.useConstantMains c.constantMains)
      c.tempMinUseful p.setpoint with
  | error e => rw [hv] at hf; exact absurd hf (by simp [Except.map])
  | ok x =>
    rw [hv] at hf
    exact congrArg Except.ok (congrArg Plant.soc (Except.ok.inj hf))

theorem updateSoC_fresh {p q : Plant n} (h : p.updateSoC = .ok q) : Fresh q := by
  cases hc : p.socControl with
  | none =>
    rw [updateSoC_none hc] at h
    rw [← Except.ok.inj h]
    exact updateSoC_none hc
  | some c =>
    rw [updateSoC_some hc] at h
    cases hv : calcSoCFraction p.tank.nodeTs (p.mainsT c.useConstantMains c.constantMains)
        c.tempMinUseful p.setpoint with
    | error e => rw [hv] at h; exact absurd h (by simp [Except.map])
    | ok x =>
      rw [hv] at h
      rw [← Except.ok.inj h]
      exact fresh_of_soc (p := { p with soc := x }) hc hv

theorem Fresh.volume {q : Plant n} (h : Fresh q) (v : ℚ) :
    Fresh { q with externalVolumeHeated := v } := by
  cases hc : q.socControl with
  | none => rw [← hc]; exact updateSoC_none (p := { q with externalVolumeHeated := v }) hc
  | some c =>
    have := Fresh.soc hc h
    rw [← hc]
    exact fresh_of_soc (p := { q with externalVolumeHeated := v }) hc this

theorem extFinishPass_fresh (s : SourceCfg n k) (c : CondCfg) (p : Plant n) (net perf : Perf)
    (frac target time remaining : ℚ) (a : ExtState n)
    (h : extFinishPass s c p net perf frac target time remaining = .ok a) : Fresh a.plant := by
  unfold extFinishPass at h
  rw [bind_ok_iff] at h
  obtain ⟨p1, h1, h2⟩ := h
  rw [← Except.ok.inj h2]
  exact (updateSoC_fresh h1).volume _

theorem spPass_fresh (s : SourceCfg n k) (c : CondCfg) (externalT : ℚ) (a b : ExtState n)
    (h : spPass s c externalT a = .ok (some b)) : Fresh b.plant := by
  unfold spPass at h
  rw [bind_ok_iff] at h
  obtain ⟨perf, hp, h⟩ := h
  dsimp only at h
  by_cases hd : min c.maxSetpoint a.plant.setpoint - a.plant.tank.nodeTs s.externalOutlet ≤ 0
  · rw [if_pos hd] at h
    exact absurd (Except.ok.inj h) (by simp)
  rw [if_neg hd, bind_ok_iff] at h
  obtain ⟨f, hf, h⟩ := h
  obtain ⟨-, h⟩ := ite_error_ok h
  rw [bind_ok_iff] at h
  obtain ⟨r, hr, h⟩ := h
  have : r = b := Option.some.inj (Except.ok.inj h)
  subst this
  exact extFinishPass_fresh _ _ _ _ _ _ _ _ _ _ hr

/-- If every state reached by another pass finishes, so does this one. -/
theorem spLoop_step (s : SourceCfg n k) (c : CondCfg) (externalT period : ℚ) (p : Plant n)
    (he : Evaluable s c externalT p) (hcp : 0 < p.tank.nodeCp) (hvol : p.tank.volume_L ≠ 0)
    (hoi : s.externalOutlet ≤ s.externalInlet) (hmix : p.tank.doInversionMixing = true)
    (hsp : c.isMultipass = false) (a : ExtState n) (inv : ExtInv s c externalT period p a)
    (hrem : 0 < a.remaining)
    (hfr : ∃ f, s.fractToMeet a.plant = .ok f ∧ 0 ≤ f ∧ f ≤ 1)
    (ih : ∀ b f, Cont s c externalT period p b → Fresh b.plant → SpStep s c externalT a b f →
      ∃ fuel r, spLoop s c externalT fuel b = .ok r) :
    ∃ fuel r, spLoop s c externalT fuel a = .ok r := by
  obtain ⟨f, hf, hf0, hf1⟩ := hfr
  obtain ⟨r, hr, hstep⟩ := spPass_progress s c externalT p a he inv.same hcp hvol hrem f
    hf hf1 hsp (exists_node_le _ _ fun lo hlo => inv.lower lo hlo _)
  cases r with
  | none =>
    refine ⟨1, a, ?_⟩
    rw [spLoop, hr]; rfl
  | some b =>
    by_cases hb : 0 < b.remaining
    · have ib := spPass_inv s c externalT period p a b hcp hvol hoi he.pos hsp
        (fun g hg => by rw [hf] at hg; rw [← Except.ok.inj hg]; exact hf0) inv hr
      have hst := hstep b rfl hb
      obtain ⟨off, hoff⟩ := shutsOff_ok s b.plant fun l hl => (he.logics l hl).congr ib.same
      cases off with
      | true =>
        refine ⟨1, b, ?_⟩
        rw [spLoop, hr]
        simp only [bind, Except.bind, gt_iff_lt, hb, if_true, hoff]
        rfl
      | false =>
        have hm : Monotone b.plant.tank.nodeTs := by
          rw [hst.nodes]
          apply Tank.mixInversions_nodes_monotone
          change a.plant.tank.doInversionMixing = true
          rw [inv.same.1]
          exact hmix
        obtain ⟨fuel, r, hr'⟩ := ih b f ⟨ib, hb, hoff, hm⟩ (spPass_fresh s c externalT a b hr) hst
        refine ⟨fuel + 1, r, ?_⟩
        rw [spLoop, hr]
        simp only [bind, Except.bind, gt_iff_lt, hb, if_true, hoff, Bool.false_eq_true, if_false]
        exact hr'
    · refine ⟨1, b, ?_⟩
      rw [spLoop, hr]
      simp only [bind, Except.bind, gt_iff_lt, hb, if_false]
      rfl

/-- Heating ends if every pass moves at least a fixed part of a node and draws water colder than the
target by at least a fixed amount. -/
theorem spLoop_finishes_of (s : SourceCfg n k) (c : CondCfg) (externalT period : ℚ) (p : Plant n)
    (he : Evaluable s c externalT p) (hcp : 0 < p.tank.nodeCp) (hvol : p.tank.volume_L ≠ 0)
    (hoi : s.externalOutlet ≤ s.externalInlet) (hmix : p.tank.doInversionMixing = true)
    (hsp : c.isMultipass = false) (Pmax : ℚ)
    (hP0 : ∀ w perf, p.MayDraw c w →
      c.getPerformance s.airflowFreedom p.setpoint externalT w = .ok perf → perf.outputPower_W ≤ Pmax)
    (φ x : ℚ) (hφ : 0 < φ) (hx : x < min c.maxSetpoint p.setpoint)
    (hfr : ∀ a, Cont s c externalT period p a → Fresh a.plant →
      ∃ f, s.fractToMeet a.plant = .ok f ∧ φ ≤ f ∧ f ≤ 1)
    (hTx : ∀ a, Cont s c externalT period p a → Fresh a.plant →
      a.plant.tank.nodeTs s.externalOutlet ≤ x) :
    ∀ a, Cont s c externalT period p a → Fresh a.plant →
      ∃ fuel r, spLoop s c externalT fuel a = .ok r := by
  set τ := min c.maxSetpoint p.setpoint
  obtain ⟨Pm, hPm, hP⟩ : ∃ Pm : ℚ, 0 < Pm ∧ ∀ w perf, p.MayDraw c w →
      c.getPerformance s.airflowFreedom p.setpoint externalT w = .ok perf → perf.outputPower_W ≤ Pm :=
    ⟨max Pmax 1, lt_max_of_lt_right one_pos, fun w perf h1 h2 =>
      (hP0 w perf h1 h2).trans (le_max_left _ _)⟩
  set δ := φ * (p.tank.nodeCp * (τ - x)) / (Pm / 1000 * 60)
  have hδ : 0 < δ := by
    have : 0 < τ - x := sub_pos.mpr hx
    positivity
  have main : ∀ (m : ℕ) (a : ExtState n), a.remaining ≤ m * δ → Cont s c externalT period p a →
      Fresh a.plant → ∃ fuel r, spLoop s c externalT fuel a = .ok r := by
    intro m
    induction m with
    | zero =>
      intro a h ha _
      exfalso
      have := ha.rem
      simp at h
      linarith
    | succ m ih =>
      intro a h ha hfa
      obtain ⟨g, hg, hgφ, hg1⟩ := hfr a ha hfa
      refine spLoop_step s c externalT period p he hcp hvol hoi hmix hsp a ha.inv ha.rem
        ⟨g, hg, hφ.le.trans hgφ, hg1⟩ fun b f hb hfb hst => ?_
      apply ih b _ hb hfb
      obtain ⟨perf, hperf, htime⟩ := hst.time
      have hset : a.plant.setpoint = p.setpoint := ha.inv.same.2.1
      have hfg : f = g := by
        have := hst.frac
        rw [hg] at this
        exact (Except.ok.inj this).symm
      subst hfg
      have hTo := hTx a ha hfa
      have hmay : p.MayDraw c (a.plant.tank.nodeTs s.externalOutlet) :=
        ⟨exists_node_le _ _ fun lo hlo => ha.inv.lower lo hlo _, fun _ => by
          have := hst.cold; rwa [hset] at this⟩
      rw [hset] at hperf
      have hpp := he.pos _ _ hmay hperf
      have hppm := hP _ _ hmay hperf
      have hge : δ ≤ f * (a.plant.tank.nodeCp * (min c.maxSetpoint a.plant.setpoint -
          a.plant.tank.nodeTs s.externalOutlet)) / (perf.outputPower_W / 1000 * 60) := by
        rw [hset, ha.inv.same.cp]
        have h1 : τ - x ≤ τ - a.plant.tank.nodeTs s.externalOutlet := by linarith
        have h0 : 0 ≤ τ - x := (sub_pos.mpr hx).le
        have h2 : φ * (p.tank.nodeCp * (τ - x)) ≤
            f * (p.tank.nodeCp * (τ - a.plant.tank.nodeTs s.externalOutlet)) := by
          apply mul_le_mul hgφ (mul_le_mul_of_nonneg_left h1 hcp.le) (by positivity)
            (hφ.le.trans hgφ)
        have h3 : 0 ≤ f * (p.tank.nodeCp * (τ - a.plant.tank.nodeTs s.externalOutlet)) := by
          have := hφ.le
          refine le_trans ?_ h2
          positivity
        exact div_le_div₀ h3 h2 (by positivity) (by linarith)
      rw [htime]
      push_cast at h
      linarith
  intro a ha
  exact main ⌈a.remaining / δ⌉₊ a ((div_le_iff₀ hδ).mp (Nat.le_ceil _)) ha

/-- The fraction asked for by logics that are each a limit of temperature or of charge. -/
theorem mixed_fract (s : SourceCfg n k) (p q : Plant n) (hq : p.SameSettings q) (hsoc : p.SoCUsable)
    (hl : ∀ l ∈ s.shutOff, l.Usable p ∧
      (l.UpperLimit ∧ l.LooksAbove s.externalOutlet ∨ l.SoCLimit p))
    (hoff : s.shutsOff q = .ok false) (hmono : Monotone q.tank.nodeTs) (hi D : ℚ)
    (hT : ∀ j, q.tank.nodeTs j ≤ hi)
    (hset : q.setpoint ≤ hi) (hDo : hi - q.tank.nodeTs s.externalOutlet ≤ D) :
    ∃ f, s.fractToMeet q = .ok f ∧
      min tolMin (((n : ℚ) + 1) / 12 * min 1 (tolMin / D)) ≤ f ∧ f ≤ 1 := by
  have htol1 : tolMin ≤ (1 : ℚ) := by norm_num [tolMin]
  obtain ⟨f, hf, hfb, hf1⟩ := fractToMeetLoop_ge q
    (min tolMin (((n : ℚ) + 1) / 12 * min 1 (tolMin / D))) s.shutOff 1 fun l hl' => by
      have hnot := (shutsOff_false s q hoff).2 l hl'
      obtain ⟨hus, hk⟩ := hl l hl'
      rcases hk with ⟨hu, ha⟩ | ⟨hcmp, minU, hyst, useC, constM, hk, hc⟩
      · obtain ⟨f, h1, -, h3⟩ := UpperLimit.fract_ge hu q (hus.congr hq) s.externalOutlet ha hmono hi
          D hT hset hDo
        exact ⟨f, h1, (min_le_right _ _).trans (h3 hnot).1⟩
      · obtain ⟨h1, h2⟩ := hsoc.congr hq _ (hq.2.2.2.2.trans hc)
        obtain ⟨f, h3, h4⟩ := soc_fract_ge hk q (hus.congr hq) hcmp h1 h2 hnot
        exact ⟨f, h3, (min_le_left _ _).trans h4⟩
  refine ⟨f, hf, ?_, hf1⟩
  refine le_trans (le_min ?_ le_rfl) hfb
  exact (min_le_left _ _).trans htol1

theorem calcSoC_uniform (mains minU tMax t x : ℚ) (hm : mains < minU) (hset : minU ≤ tMax)
    (ht : minU ≤ t)
    (h : calcSoCFraction (fun _ : Fin (n + 1) => t) mains minU tMax = .ok x) :
    x = (t - mains) / (tMax - mains) := by
  have hpos : minU - mains ≠ 0 := (sub_pos.mpr hm).ne'
  have hpos' : tMax - mains ≠ 0 := by intro h; linarith
  unfold calcSoCFraction chargePerNode at h
  rw [if_neg (not_lt.mpr hset), if_neg hpos] at h
  simp only at h
  split_ifs at h with hc
  rw [← Except.ok.inj h]
  unfold Plant.chargeSum
  simp only [if_neg (not_lt.mpr ht), Finset.sum_const, Finset.card_univ, Fintype.card_fin,
    nsmul_eq_mul]
  have hN : ((n : ℚ) + 1) ≠ 0 := by positivity
  push_cast
  field_simp

/-- While a limit of charge that a heated-through tank meets is not met, the bottom of the tank is
colder than the heated water by a fixed amount. -/
theorem soc_bottom_cold (s : SourceCfg n k) (p : Plant n) (hsoc : p.SoCUsable) (l : Logic)
    (hl : l ∈ s.shutOff) (hus : l.Usable p) (hlim : l.SoCLimit p) (t : ℚ) (hmet : l.MetAt p t) :
    ∃ x, x < t ∧ ∀ q : Plant n, p.SameSettings q → Fresh q → Monotone q.tank.nodeTs →
      s.shutsOff q = .ok false → q.tank.nodeTs 0 ≤ x := by
  obtain ⟨hcmp, minU, hyst, useC, constM, hk, hc⟩ := hlim
  obtain ⟨c, y, hc', hmin, hy, hlt⟩ := hmet
  have ec : c = ⟨minU, useC, constM⟩ := Option.some.inj (hc'.symm.trans hc)
  subst ec
  obtain ⟨h1, h2⟩ := hsoc _ hc
  simp only at hmin hy h1 h2
  have hyv := calcSoC_uniform _ _ _ _ _ h1 h2 hmin.le hy
  set mains := p.mainsT useC constM with hmains
  have hpos : 0 < p.setpoint - mains := by linarith
  refine ⟨max minU (mains + l.comparisonValue p * (p.setpoint - mains)), max_lt hmin ?_, ?_⟩
  · rw [hyv, lt_div_iff₀ hpos] at hlt
    linarith
  · intro q hq hf hmono hoff
    by_contra hcold
    have hcold := not_le.mp hcold
    have hnot := (shutsOff_false s q hoff).2 l hl
    apply hnot
    have hmq : q.mainsT useC constM = mains := by
      rw [hmains]; unfold Plant.mainsT; rw [hq.2.2.1]
    have hsq := Fresh.soc (hq.2.2.2.2.trans hc) hf
    simp only [hmq, hq.2.1] at hsq
    have hge := soc_ge_uniform q.tank.nodeTs mains minU p.setpoint (q.tank.nodeTs 0) q.soc h1 h2
      ((le_max_left _ _).trans hcold.le) (fun j => hmono (Fin.zero_le j)) hsq
    have hgt : l.comparisonValue p < q.soc := by
      refine lt_of_lt_of_le ?_ hge
      rw [lt_div_iff₀ hpos]
      have := (le_max_right minU (mains + l.comparisonValue p * (p.setpoint - mains))).trans_lt hcold
      linarith
    have hcq : l.comparisonValue q = l.comparisonValue p := by
      unfold Logic.comparisonValue; rw [hk]
    have hv : l.tankValue q = .ok q.soc := by
      have hus := hus.congr hq
      unfold Logic.tankValue
      unfold Logic.Usable at hus
      rw [hk] at hus
      simp only [hk]
      simp only at hus
      rw [if_neg]
      rintro ⟨h1, h2⟩
      rcases hus with h | h
      · rw [h1] at h; exact absurd h (by decide)
      · rw [h2] at h; exact absurd h (by decide)
    unfold Logic.holds
    rw [hv, hcmp, hcq]
    simp only [Cmp.test, decide_eq_true hgt]

end HPWH
