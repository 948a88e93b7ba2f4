import Verif.Props.External
import Verif.Model.Settings
import Verif.Lemmas.SinglePassSoC

/-! # C18: does single-pass external heating finish? -/

namespace HPWH

open Spec

variable {n k : ℕ}

/-- **C18, partial.** Single-pass external heating returns, for every period, every stratified tank with
inversion mixing and every performance function with positive bounded output between
the coldest node and the target, if its shut-off logics
are upper temperature limits that look only at nodes at or above the outlet, and either

* some limit is below the temperature of the heated water (the lower of setpoint and condenser
  maximum), or
* the inlet is the top node, the tank has at least 12 nodes, the setpoint is within the condenser's
  reach and no node is above it.

Missing from the full claim: it is false in general, see `C18_lower_limit_never_returns` and
`C18_lower_limit_runs_backwards`; logics on the state of charge, unstratified tanks without inversion
mixing, and logics that look below the outlet are not covered. -/
theorem C18_single_pass_finishes_partial (s : SourceCfg n k) (c : CondCfg) (p : Plant n)
    (st : SourceState) (externalT minutes Pmax : ℚ) (hmin : 0 < minutes) (ht : p.tank.Consistent)
    (hstrat : Stratified p.tank.nodeTs) (hmix : p.tank.doInversionMixing = true)
    (hoi : s.externalOutlet ≤ s.externalInlet) (hsp : c.isMultipass = false)
    (hok : ∀ water, ∃ perf, c.getPerformance s.airflowFreedom p.setpoint externalT water = .ok perf)
    (hperf : ∀ water perf, p.MayDraw c water →
      c.getPerformance s.airflowFreedom p.setpoint externalT water = .ok perf →
      0 < perf.outputPower_W ∧ perf.outputPower_W ≤ Pmax)
    (hsoc : p.SoCUsable)
    (hlogics : ∀ l ∈ s.shutOff, l.UpperLimit ∧ l.Usable p ∧ l.LooksAbove s.externalOutlet)
    (hcase : (∃ l ∈ s.shutOff, l.comparisonValue p < min c.maxSetpoint p.setpoint) ∨
      (s.externalInlet = Fin.last n ∧ 12 ≤ n + 1 ∧ p.setpoint ≤ c.maxSetpoint ∧
        ∀ j, p.tank.nodeTs j ≤ p.setpoint)) :
    ∃ fuel r, externalAddHeat fuel s c p st externalT minutes = .ok r := by
  have hs : SpSettings s c externalT p :=
    { eval := ⟨hok, fun w perf h1 h2 => (hperf w perf h1 h2).1,
        fun l hl => (hlogics l hl).2.1, hsoc⟩
      cp := ht.nodeCp_pos
      volume := ht.volume_pos.ne'
      order := hoi
      limits := fun l hl => (hlogics l hl).1
      above := fun l hl => (hlogics l hl).2.2
      mixing := hmix
      single := hsp }
  have hcont : ∀ a, Cont s c externalT minutes p a →
      ∃ fuel r, spLoop s c externalT fuel a = .ok r := by
    rcases hcase with ⟨l, hl, hlim⟩ | ⟨h1, h2, h3, h4⟩
    · exact spLoop_finishes_below s c externalT minutes p hs Pmax
        (fun w perf h1 h2 => (hperf w perf h1 h2).2) l hl hlim
    · exact spLoop_finishes_through s c externalT minutes p hs h1 h2 h3 h4
  obtain ⟨fuel, a, ha⟩ := Cont.step s c externalT minutes p hs ⟨p, minutes, ⟨0, 0, 0⟩⟩
    (.init s c externalT minutes p hmin.le) hmin ((stratified_iff_monotone _).mp hstrat)
    fun b f hb _ => hcont b hb
  refine ⟨fuel, ?_⟩
  unfold externalAddHeat addHeatExternal
  simp only [hsp, Bool.false_eq_true, if_false, ha]
  exact ⟨_, rfl⟩

/-- The first alternative of `C18_single_pass_finishes_partial` applies to the sample. -/
example : samplePlant.tank.Consistent ∧ Stratified samplePlant.tank.nodeTs ∧
    samplePlant.tank.doInversionMixing = true ∧ samplePlant.SoCUsable ∧
    (∀ water, ∃ perf, sampleExtCond.getPerformance sampleExt.airflowFreedom samplePlant.setpoint 20 water = .ok perf ∧
      0 < perf.outputPower_W ∧ perf.outputPower_W ≤ 15000) ∧
    (∀ l ∈ sampleExt.shutOff, l.UpperLimit ∧ l.Usable samplePlant ∧
      l.LooksAbove sampleExt.externalOutlet) ∧
    (∃ l ∈ sampleExt.shutOff,
      l.comparisonValue samplePlant < min sampleExtCond.maxSetpoint samplePlant.setpoint) := by
  refine ⟨warmTank_wellFormed.toConsistent, ?_, by decide +kernel, ?_, ?_, ?_, ?_⟩
  · unfold Stratified; decide +kernel
  · intro c hc; exact absurd hc (by simp [samplePlant])
  · intro w
    refine ⟨_, rfl, ?_⟩
    norm_num [sampleExtCond, sampleCond, sampleExt, sampleElement]
  · intro l hl
    have : l = sampleShutOff := by simpa [sampleExt] using hl
    rw [this]
    exact ⟨⟨rfl, _, _, rfl⟩, trivial, rfl⟩
  · exact ⟨sampleShutOff, by simp [sampleExt], by decide +kernel⟩

/-- The second alternative applies to a tank of twelve nodes whose shut-off limit is above the
setpoint. -/
example : ∃ (p : Plant 11) (s : SourceCfg 11 2), p.tank.Consistent ∧ Stratified p.tank.nodeTs ∧
    p.tank.doInversionMixing = true ∧ s.shutOff = [{ sampleShutOff with decisionPoint := 60 }] ∧
    s.externalOutlet = 0 ∧ s.externalInlet = Fin.last 11 ∧ p.setpoint ≤ sampleExtCond.maxSetpoint ∧
    (∀ j, p.tank.nodeTs j ≤ p.setpoint) ∧ p.tank.nodeTs 0 < p.setpoint := by
  refine ⟨⟨{ warmTank with
      nodeTs := fun j => 20 + j.val
      nodeVolume_L := warmTank.volume_L / 12
      nodeCp := cpWater * rhoWater * (warmTank.volume_L / 12) }, 55, 10, true, none, 1, 0, 0, 0⟩,
    { sampleElement with
      backup := none, companion := none, followedBy := none
      lowestNode := 0
      shutOff := [{ sampleShutOff with decisionPoint := 60 }]
      externalInlet := Fin.last 11
      externalOutlet := 0 }, ?_, ?_, ?_, rfl, rfl, rfl, ?_, ?_, ?_⟩
  · exact ⟨by decide +kernel, by decide +kernel, by decide +kernel⟩
  · unfold Stratified; decide +kernel
  · decide +kernel
  · decide +kernel
  · decide +kernel
  · decide +kernel

/-- **C18, partial, with the state of charge.** As `C18_single_pass_finishes_partial`, with shut-off
logics that are each an upper temperature limit that looks at or above the outlet, or a limit on the
state of charge counted as the heater counts it. Heating that starts while no logic holds returns, if
some temperature limit is below the temperature of the heated water, or if the outlet is the bottom
node and some limit of charge is met by a tank that is heated through.

Missing from the full claim: as above; limits of charge that not even a heated-through tank meets, and
outlets above the bottom. -/
theorem C18_single_pass_charge_finishes_partial (s : SourceCfg n k) (c : CondCfg) (p : Plant n)
    (st : SourceState) (externalT minutes Pmax : ℚ) (hmin : 0 < minutes) (ht : p.tank.Consistent)
    (hstrat : Stratified p.tank.nodeTs) (hmix : p.tank.doInversionMixing = true)
    (hoi : s.externalOutlet ≤ s.externalInlet) (hsp : c.isMultipass = false)
    (hok : ∀ water, ∃ perf, c.getPerformance s.airflowFreedom p.setpoint externalT water = .ok perf)
    (hperf : ∀ water perf, p.MayDraw c water →
      c.getPerformance s.airflowFreedom p.setpoint externalT water = .ok perf →
      0 < perf.outputPower_W ∧ perf.outputPower_W ≤ Pmax)
    (hsoc : p.SoCUsable)
    (hlogics : ∀ l ∈ s.shutOff, l.Usable p ∧
      (l.UpperLimit ∧ l.LooksAbove s.externalOutlet ∨ l.SoCLimit p))
    (hoff : s.shutsOff p = .ok false)
    (hcase : (∃ l ∈ s.shutOff, l.UpperLimit ∧ l.comparisonValue p < min c.maxSetpoint p.setpoint) ∨
      (s.externalOutlet = 0 ∧
        ∃ l ∈ s.shutOff, l.SoCLimit p ∧ l.MetAt p (min c.maxSetpoint p.setpoint))) :
    ∃ fuel r, externalAddHeat fuel s c p st externalT minutes = .ok r := by
  have he : Evaluable s c externalT p := ⟨hok, fun w perf h1 h2 => (hperf w perf h1 h2).1,
    fun l hl => (hlogics l hl).1, hsoc⟩
  have hm := (stratified_iff_monotone _).mp hstrat
  set lo := -maxWeight (fun j => -p.tank.nodeTs j)
  have hlo : ∀ j, lo ≤ p.tank.nodeTs j := fun j => by
    have := le_maxWeight (fun j => -p.tank.nodeTs j) j
    simp only [lo]; linarith
  set hi := max (maxWeight p.tank.nodeTs) p.setpoint
  have hhi : ∀ j, p.tank.nodeTs j ≤ hi := fun j => (le_maxWeight _ j).trans (le_max_left _ _)
  have hlohi : lo ≤ hi := (hlo 0).trans (hhi 0)
  set D := hi - lo + 1
  have hD : 0 < D := by simp only [D]; linarith
  set φ := min tolMin (((n : ℚ) + 1) / 12 * min 1 (tolMin / D))
  have htol : (0 : ℚ) < tolMin := by norm_num [tolMin]
  have hφ : 0 < φ := by
    refine lt_min htol ?_
    exact mul_pos (by positivity) (lt_min one_pos (by positivity))
  have bnd : ∀ a, Cont s c externalT minutes p a →
      (∀ j, lo ≤ a.plant.tank.nodeTs j ∧ a.plant.tank.nodeTs j ≤ hi) := fun a ha =>
    ha.inv.bounds hsp lo hi (fun j => ⟨hlo j, hhi j⟩) ((min_le_right _ _).trans (le_max_right _ _))
  have hset : ∀ a, Cont s c externalT minutes p a → a.plant.setpoint = p.setpoint := fun a ha =>
    ha.inv.same.2.1
  have hfr : ∀ a, Cont s c externalT minutes p a → Fresh a.plant →
      ∃ f, s.fractToMeet a.plant = .ok f ∧ φ ≤ f ∧ f ≤ 1 := fun a ha _ =>
    mixed_fract s p a.plant ha.inv.same hsoc hlogics ha.off ha.mono hi D (fun j => (bnd a ha j).2)
      (by rw [hset a ha]; exact le_max_right _ _)
      (by have := (bnd a ha s.externalOutlet).1; simp only [D]; linarith)
  obtain ⟨x, hx, hTx⟩ : ∃ x, x < min c.maxSetpoint p.setpoint ∧
      ∀ a, Cont s c externalT minutes p a → Fresh a.plant →
        a.plant.tank.nodeTs s.externalOutlet ≤ x := by
    rcases hcase with ⟨l, hl, hu, hlt⟩ | ⟨ho, l, hl, hlim, hmet⟩
    · refine ⟨l.comparisonValue p, hlt, fun a ha _ => ?_⟩
      have hab : l.LooksAbove s.externalOutlet := by
        rcases (hlogics l hl).2 with h | ⟨-, minU, hyst, useC, constM, hk, -⟩
        · exact h.2
        · obtain ⟨-, a', d, hk'⟩ := hu
          rw [hk] at hk'; cases hk'
      obtain ⟨_, _, _, h4⟩ := UpperLimit.fract_ge hu a.plant ((hlogics l hl).1.congr ha.inv.same)
        s.externalOutlet hab ha.mono hi D (fun j => (bnd a ha j).2)
        (by rw [hset a ha]; exact le_max_right _ _)
        (by have := (bnd a ha s.externalOutlet).1; simp only [D]; linarith)
      have := (h4 ((shutsOff_false s a.plant ha.off).2 l hl)).2
      have e : l.comparisonValue a.plant = l.comparisonValue p := by
        unfold Logic.comparisonValue; rw [hset a ha]
      rwa [e] at this
    · obtain ⟨x, hx, h⟩ := soc_bottom_cold s p hsoc l hl (hlogics l hl).1 hlim _ hmet
      refine ⟨x, hx, fun a ha hf => ?_⟩
      rw [ho]
      exact h a.plant ha.inv.same hf ha.mono ha.off
  obtain ⟨f0, hf0, hf1, hf2⟩ := mixed_fract s p p (.refl p) hsoc hlogics hoff hm hi D hhi
    (le_max_right _ _) (by have := hlo s.externalOutlet; simp only [D]; linarith)
  obtain ⟨fuel, a, ha⟩ := spLoop_step s c externalT minutes p he ht.nodeCp_pos ht.volume_pos.ne' hoi
    hmix hsp ⟨p, minutes, ⟨0, 0, 0⟩⟩ (.init s c externalT minutes p hmin.le) hmin
    ⟨f0, hf0, hφ.le.trans hf1, hf2⟩ fun b f hb hfb _ =>
      spLoop_finishes_of s c externalT minutes p he ht.nodeCp_pos ht.volume_pos.ne' hoi hmix hsp Pmax
        (fun w perf h1 h2 => (hperf w perf h1 h2).2) φ x hφ hx hfr hTx b hb hfb
  refine ⟨fuel, ?_⟩
  unfold externalAddHeat addHeatExternal
  simp only [hsp, Bool.false_eq_true, if_false, ha]
  exact ⟨_, rfl⟩

/-- `C18_single_pass_charge_finishes_partial` applies to the sample under control by the state of
charge, with the limit that `switchToSoCControls` makes. -/
example : ∃ (p : Plant 3) (l : Logic), l = Sim.shutOffSoC (3/4) (1/20) 43 true 18 ∧
    p.tank = samplePlant.tank ∧ p.SoCUsable ∧ l.Usable p ∧ l.SoCLimit p ∧
    ({ sampleExt with shutOff := [l] } : SourceCfg 3 2).shutsOff p = .ok false ∧
    sampleExt.externalOutlet = 0 ∧ l.MetAt p (min sampleExtCond.maxSetpoint p.setpoint) := by
  refine ⟨{ samplePlant with socControl := some ⟨43, true, 18⟩, soc := 1/5 }, _, rfl, rfl, ?_, ?_,
    ⟨rfl, _, _, _, _, rfl, rfl⟩, by decide +kernel, rfl, ?_⟩
  · intro c hc
    have : c = ⟨43, true, 18⟩ := (Option.some.inj hc).symm
    subst this
    decide +kernel
  · right; rfl
  · refine ⟨_, 1, rfl, by decide +kernel, by decide +kernel, by decide +kernel⟩

/-- A pass that changes nothing is repeated for ever. -/
theorem spLoop_stuck (s : SourceCfg n k) (c : CondCfg) (externalT : ℚ) (a : ExtState n)
    (hpass : spPass s c externalT a = .ok (some a)) (hrem : 0 < a.remaining)
    (hoff : s.shutsOff a.plant = .ok false) (fuel : ℕ) :
    spLoop s c externalT fuel a = .error .diverge := by
  induction fuel with
  | zero => rfl
  | succ fuel ih =>
    rw [spLoop, hpass]
    simp only [bind, Except.bind, gt_iff_lt, hrem, if_true, hoff, Bool.false_eq_true, if_false]
    exact ih

/-- Finding: single-pass heating never returns, whatever the number of passes, when the shut-off logics
ask for no water at all without holding: no water moves, no time passes and the loop repeats. The
plant is stratified (or has inversion mixing off) and does not use the state of charge. -/
theorem C18_stuck_without_progress (s : SourceCfg n k) (c : CondCfg) (p : Plant n)
    (st : SourceState) (externalT minutes : ℚ) (hmin : 0 < minutes) (ht : p.tank.Consistent)
    (hstrat : Stratified p.tank.nodeTs) (hsp : c.isMultipass = false)
    (hcold : p.tank.nodeTs s.externalOutlet < min c.maxSetpoint p.setpoint) (perf : Perf)
    (hperf : c.getPerformance s.airflowFreedom p.setpoint externalT (p.tank.nodeTs s.externalOutlet) = .ok perf)
    (hpos : 0 < perf.outputPower_W) (hsoc : p.socControl = none)
    (hoff : s.shutsOff p = .ok false) (hfrac : s.fractToMeet p = .ok 0) (fuel : ℕ) :
    externalAddHeat fuel s c p st externalT minutes = .error .diverge := by
  have hshift : ∀ τ, shiftNodes p.tank.nodeTs s.externalOutlet s.externalInlet 0 τ =
      p.tank.nodeTs := by
    intro τ
    funext j
    unfold shiftNodes
    split_ifs <;> ring
  have hpass : spPass s c externalT ⟨p, minutes, ⟨0, 0, 0⟩⟩ = .ok (some ⟨p, minutes, ⟨0, 0, 0⟩⟩) := by
    unfold spPass
    dsimp only
    rw [hperf]
    have hd : ¬ min c.maxSetpoint p.setpoint - p.tank.nodeTs s.externalOutlet ≤ 0 := by
      rw [not_le]; linarith
    have hcap : 0 < Units.W_TO_KW perf.outputPower_W * (minutes * Units.secPerMin) := by
      unfold Units.W_TO_KW Units.secPerMin; positivity
    have hheat : 0 < p.tank.nodeCp * (min c.maxSetpoint p.setpoint -
        p.tank.nodeTs s.externalOutlet) := mul_pos ht.nodeCp_pos (sub_pos.mpr hcold)
    simp only [bind, Except.bind, hd, if_false, hfrac]
    have hf0 : (0 : ℚ) < (if Units.W_TO_KW perf.outputPower_W * (minutes * Units.secPerMin) <
        p.tank.nodeCp * (min c.maxSetpoint p.setpoint - p.tank.nodeTs s.externalOutlet) then
        Units.W_TO_KW perf.outputPower_W * (minutes * Units.secPerMin) /
          (p.tank.nodeCp * (min c.maxSetpoint p.setpoint - p.tank.nodeTs s.externalOutlet))
        else 1) := by
      split_ifs
      · positivity
      · norm_num
    simp only [hf0, if_true, zero_mul, gt_iff_lt, hcap, hcap.ne', and_false, if_false]
    unfold extFinishPass
    simp only [hshift, zero_div, mul_zero, add_zero, sub_zero, zero_mul]
    have hmix := (C02_mixing_idempotent p.tank).1 hstrat
    have e : ({ p.tank with nodeTs := p.tank.nodeTs } : Tank n) = p.tank := rfl
    rw [e, hmix]
    have hup : p.updateSoC = .ok p := by
      unfold Plant.updateSoC; rw [hsoc]
    simp only [hup]
    rfl
  unfold externalAddHeat addHeatExternal
  simp only [hsp, Bool.false_eq_true, if_false]
  rw [spLoop_stuck s c externalT _ hpass hmin hoff fuel]
  rfl

/-- Shut off when the bottom of the tank is *below* 20 °C. -/
def sampleLowerLimit (limit : ℚ) : Logic := { sampleShutOff with cmp := .less, decisionPoint := limit }

/-- Finding: a concrete tank for which single-pass heating never returns: the shut-off logic is a lower
limit on the bottom node, which is at that limit. -/
theorem C18_lower_limit_never_returns (fuel : ℕ) :
    externalAddHeat fuel { sampleExt with shutOff := [sampleLowerLimit 20] } sampleExtCond
      samplePlant sampleState 20 30 = .error .diverge := by
  refine C18_stuck_without_progress _ _ _ _ _ _ (by norm_num) warmTank_wellFormed.toConsistent
    (by unfold Stratified; decide +kernel) rfl (by decide +kernel) ⟨5000, 15000, 3⟩ ?_ (by norm_num)
    rfl ?_ ?_ fuel
  · obtain ⟨r, h1, h2⟩ : ∃ r, sampleExtCond.getPerformance 1 samplePlant.setpoint 20 20 = .ok r ∧
        r = ⟨5000, 15000, 3⟩ := by decide +kernel
    rw [← h2]; exact h1
  · rfl
  · obtain ⟨r, h1, h2⟩ : ∃ r, SourceCfg.fractToMeet (k := 2)
        { sampleExt with shutOff := [sampleLowerLimit 20] } samplePlant = .ok r ∧ r = 0 := by
      decide +kernel
    rw [← h2]; exact h1

/-- Finding: with the bottom node well above such a lower limit the pass runs backwards: hot water is
taken out, the tank cools and the time left grows beyond the period. -/
theorem C18_lower_limit_runs_backwards :
    ∃ r, spPass { sampleExt with shutOff := [sampleLowerLimit 10] } sampleExtCond 20
        ⟨samplePlant, 30, ⟨0, 0, 0⟩⟩ = .ok r ∧
      ∃ a, r = some a ∧ 30 < a.remaining ∧ a.net.outputPower_W < 0 ∧
        a.plant.tank.nodeTs 3 < samplePlant.tank.nodeTs 3 := by
  have h : ∃ r, spPass { sampleExt with shutOff := [sampleLowerLimit 10] } sampleExtCond 20
      ⟨samplePlant, 30, ⟨0, 0, 0⟩⟩ = .ok r ∧ (r.map fun a => decide (30 < a.remaining ∧
        a.net.outputPower_W < 0 ∧ a.plant.tank.nodeTs 3 < samplePlant.tank.nodeTs 3)) =
      some true := by decide +kernel
  obtain ⟨r, h1, h2⟩ := h
  refine ⟨r, h1, ?_⟩
  cases r with
  | none => simp at h2
  | some a => exact ⟨a, rfl, by simpa using h2⟩

end HPWH
