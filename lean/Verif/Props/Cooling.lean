import Verif.Spec.Cooling
import Verif.Props.Reasons
import Verif.Props.Between
import Verif.Props.Demand
import Verif.Props.Cli
import Mathlib.Algebra.Order.Archimedean.Basic

/-! # C95: a tank left alone -/

namespace HPWH

open Spec Sim
open _root_.HPWH.Units

variable {n k : ℕ}

/-- Losses and conduction at one node: a mean of the old temperatures of the node and its neighbours, weighted by
`1 - c`, and of the air, weighted by `c`. -/
theorem lossConduct_shrinks (tau : ℚ) (h0 : 0 ≤ tau) (T : Nodes n ℚ) (amb c lo hi : ℚ) (h1 : 2 * tau + c ≤ 1)
    (hb : ∀ k, amb + lo ≤ T k ∧ T k ≤ amb + hi) (k : Fin (n + 1)) :
    amb + (1 - c) * lo ≤ T k - c * (T k - amb) + Tank.conductNode tau T k ∧
      T k - c * (T k - amb) + Tank.conductNode tau T k ≤ amb + (1 - c) * hi := by
  have hk := k.isLt
  have b := hb k
  unfold Tank.conductNode
  split_ifs with hn hz hl
  · constructor <;> nlinarith
  · have d := hb ⟨1, by omega⟩
    constructor
    · nlinarith [mul_nonneg h0 (sub_nonneg.mpr d.1), mul_nonneg (show 0 ≤ 1 - tau - c by linarith) (sub_nonneg.mpr b.1)]
    · nlinarith [mul_nonneg h0 (sub_nonneg.mpr d.2), mul_nonneg (show 0 ≤ 1 - tau - c by linarith) (sub_nonneg.mpr b.2)]
  · have d := hb ⟨n - 1, by omega⟩
    constructor
    · nlinarith [mul_nonneg h0 (sub_nonneg.mpr d.1), mul_nonneg (show 0 ≤ 1 - tau - c by linarith) (sub_nonneg.mpr b.1)]
    · nlinarith [mul_nonneg h0 (sub_nonneg.mpr d.2), mul_nonneg (show 0 ≤ 1 - tau - c by linarith) (sub_nonneg.mpr b.2)]
  · have d := hb ⟨k.val + 1, by omega⟩
    have e := hb ⟨k.val - 1, by omega⟩
    constructor
    · nlinarith [mul_nonneg h0 (sub_nonneg.mpr d.1), mul_nonneg h0 (sub_nonneg.mpr e.1),
        mul_nonneg (show 0 ≤ 1 - 2 * tau - c by linarith) (sub_nonneg.mpr b.1)]
    · nlinarith [mul_nonneg h0 (sub_nonneg.mpr d.2), mul_nonneg h0 (sub_nonneg.mpr e.2),
        mul_nonneg (show 0 ≤ 1 - 2 * tau - c by linarith) (sub_nonneg.mpr b.2)]

theorem Sim.Insulated.consistent {s : Sim n k} (h : s.Insulated) : s.tank.Consistent where
  volume_pos := h.volume
  nodeVolume := by rw [h.nodeVolume]; unfold Tank.numNodes; rfl
  nodeCp := by rw [h.nodeCp]; norm_num [cpWater, rhoWater]

theorem Sim.Insulated.shares {s : Sim n k} (h : s.Insulated) :
    0 ≤ s.wallShare ∧ s.wallShare ≤ s.nodeShare ∧ 2 * s.tank.tau (60 * s.cfg.minutesPerStep) + s.nodeShare ≤ 1 ∧
    s.nodeShare ≤ 1 := by
  have hv := h.volume
  have hm : 0 ≤ s.cfg.minutesPerStep / 60 := div_nonneg h.step (by norm_num)
  have hN : (0 : ℚ) < n + 1 := by positivity
  have ht : 0 ≤ s.tank.tau (60 * s.cfg.minutesPerStep) := s.tank.tau_nonneg _ (by have := h.step; positivity)
  have hg := h.gentle
  rw [h.nodeCp, h.nodeVolume] at hg
  have e : s.wallShare = (s.tank.UA * s.tank.fracAreaSide + s.tank.fittingsUA) / (n + 1) * (s.cfg.minutesPerStep / 60) /
      (4180 / 1000 * (995 / 1000) * (s.tank.volume_L / (n + 1))) := by
    unfold Sim.wallShare
    field_simp
  refine ⟨div_nonneg (mul_nonneg h.side hm) (by positivity), ?_, hg, ?_⟩
  · rw [e]
    unfold Sim.nodeShare
    apply div_le_div_of_nonneg_right _ (by positivity)
    apply mul_le_mul_of_nonneg_right _ hm
    have := h.ends
    linarith
  · unfold Sim.nodeShare
    linarith

/-- One update of the tank without a draw. -/
theorem losses_shrink {s : Sim n k} (h : s.Insulated) (t' : Tank n) (amb lo hi : ℚ)
    (hT : ∀ j, amb + lo ≤ s.tank.nodeTs j ∧ s.tank.nodeTs j ≤ amb + hi)
    (hr : ({ s.tank with outletT := 0, standbyLosses_kJ := 0 } : Tank n).processLosses (s.cfg.minutesPerStep / 60)
      (60 * s.cfg.minutesPerStep) amb = .ok t') (lo' hi' : ℚ)
    (hlo : ∀ c, s.wallShare ≤ c → c ≤ s.nodeShare → lo' ≤ (1 - c) * lo)
    (hhi : ∀ c, s.wallShare ≤ c → c ≤ s.nodeShare → (1 - c) * hi ≤ hi') :
    ∀ j, amb + lo' ≤ t'.nodeTs j ∧ t'.nodeTs j ≤ amb + hi' := by
  set t : Tank n := { s.tank with outletT := 0, standbyLosses_kJ := 0 } with ht
  have hc : t.Consistent := ⟨h.consistent.volume_pos, h.consistent.nodeVolume, h.consistent.nodeCp⟩
  have hcp := hc.nodeCp_pos
  obtain ⟨s1, s2, s3, s4⟩ := h.shares
  have hm : 0 ≤ s.cfg.minutesPerStep / 60 := div_nonneg h.step (by norm_num)
  have hsec : 0 ≤ 60 * s.cfg.minutesPerStep := by have := h.step; positivity
  obtain ⟨_, _, _, _, h5, _⟩ := Tank.processLosses_ok t t' hc.volume_pos.ne' _ _ _ hr
  have hN : (0 : ℚ) < n + 1 := by positivity
  have hE : 0 ≤ t.endLossRate := h.ends
  have eS : t.sideLossRate = (s.tank.UA * s.tank.fracAreaSide + s.tank.fittingsUA) / (n + 1) := by
    rfl
  have hS : 0 ≤ t.sideLossRate := by rw [eS]; exact div_nonneg h.side hN.le
  have ecp : t.nodeCp = 4180 / 1000 * (995 / 1000) * (s.tank.volume_L / (n + 1)) := by
    rw [← h.nodeVolume]; exact h.nodeCp
  have hw : s.wallShare = t.sideLossRate * (s.cfg.minutesPerStep / 60) / t.nodeCp := by
    rw [eS, ecp]
    have := h.volume
    unfold Sim.wallShare
    field_simp
  have hs : s.nodeShare = (2 * t.endLossRate + t.sideLossRate) * (s.cfg.minutesPerStep / 60) / t.nodeCp := by
    rw [eS, ecp]
    rfl
  have hstep : ∀ tau, 0 ≤ tau → tau ≤ t.tau (60 * s.cfg.minutesPerStep) → ∀ j,
      amb + lo' ≤ t.afterLosses (s.cfg.minutesPerStep / 60) amb j + Tank.conductNode tau t.nodeTs j ∧
      t.afterLosses (s.cfg.minutesPerStep / 60) amb j + Tank.conductNode tau t.nodeTs j ≤ amb + hi' := by
    intro tau ht0 ht1 j
    rw [Tank.afterLosses_apply]
    set c := ((if j = 0 then t.endLossRate else 0) + (if j = Fin.last n then t.endLossRate else 0) +
      t.sideLossRate) * (s.cfg.minutesPerStep / 60) / t.nodeCp with hcdef
    have c1 : s.wallShare ≤ c := by
      rw [hw]
      apply div_le_div_of_nonneg_right _ hcp.le
      apply mul_le_mul_of_nonneg_right _ hm
      split_ifs <;> linarith
    have c2 : c ≤ s.nodeShare := by
      rw [hs]
      apply div_le_div_of_nonneg_right _ hcp.le
      apply mul_le_mul_of_nonneg_right _ hm
      split_ifs <;> linarith
    have et : t.tau (60 * s.cfg.minutesPerStep) = s.tank.tau (60 * s.cfg.minutesPerStep) := rfl
    obtain ⟨b1, b2⟩ := lossConduct_shrinks tau ht0 t.nodeTs amb c lo hi (by rw [et] at ht1; linarith) hT j
    have := hlo c c1 c2
    have := hhi c c1 c2
    exact ⟨by linarith, by linarith⟩
  apply h5
  intro j
  unfold Tank.nextNodes
  by_cases hd : t.doConduction = true
  · simp only [hd, if_true]
    exact hstep _ (t.tau_nonneg _ hsec) le_rfl j
  · have := hstep 0 le_rfl (t.tau_nonneg _ hsec) j
    have e : Tank.conductNode 0 t.nodeTs j = 0 := by
      unfold Tank.conductNode; split_ifs <;> simp
    rw [e] at this
    simpa [hd] using this

/-- What an undisturbed step does. -/
theorem Sim.Undisturbed.step {m : Libm} {fuel : ℕ} {s s' : Sim n k} {u : StepInput} {amb : ℚ} (hi : s.Insulated)
    (hu : s.Undisturbed u amb) (hr : Sim.runOneStep m fuel s u = .ok s') :
    ({ s.tank with outletT := 0, standbyLosses_kJ := 0 } : Tank n).processLosses (s.cfg.minutesPerStep / 60)
      (60 * s.cfg.minutesPerStep) amb = .ok s'.tank ∧ s'.cfg = s.cfg ∧ s'.tank.toTankCfg = s.tank.toTankCfg ∧
    s'.isHeating = false ∧ (∀ i, (s'.st i).isOn = false) ∧ (∀ i, (s'.st i).energyOutput_kWh = 0) ∧
    s'.standbyLosses_kWh = s'.tank.standbyLosses_kJ / 3600 := by
  have hset := runOneStep_settings hu.extra hr
  have hloss : s'.standbyLosses_kWh = s'.tank.standbyLosses_kJ / 3600 := by
    obtain ⟨-, s0, s1, s2, -, -, -, rfl⟩ := runOneStep_ok hr
    obtain ⟨g1, -, -, -, g5, -⟩ := finish_facts s2 u.tankAmbient u.dr
    rw [g5, show (((s2.trackLocation u.tankAmbient).settleOutputs).updateTimer u.dr).tank = s2.tank from
      congrArg Plant.tank g1]
    unfold KJ_TO_KWH secPerHr secPerMin minPerHr
    ring
  obtain ⟨d, a, b, c⟩ : s.DrawnTank u s'.tank ∧ s'.isHeating = false ∧ (∀ i, (s'.st i).isOn = false) ∧
      ∀ i, (s'.st i).energyOutput_kWh = 0 := by
    rcases hu.off with ⟨h1, h2⟩ | ⟨h1, h2, h3, h4⟩
    · obtain ⟨a, b, c, d⟩ := C29_nothing_heats m fuel s s' u h1 h2 hu.extra hr
      exact ⟨a, b, c, fun i => (d i).2⟩
    · obtain ⟨a, b, c⟩ := C91_rest m fuel s s' u h1 h2 hu.extra h4 h3 hr
      exact ⟨a, b, fun i => (c i).1, fun i => (c i).2.2.1⟩
  unfold Sim.DrawnTank Tank.updateNodes at d
  have e : s.tankAirT u = amb := by
    unfold Sim.tankAirT
    rw [hi.room]
    exact hu.around
  rw [hu.draw, e] at d
  have e2 : ∀ t : Tank n, t.processDraw 0 s.inletT u.inletVol2_L u.inletT2 = .ok t := fun t => by
    unfold Tank.processDraw
    simp
  rw [e2] at d
  have hc := hi.consistent
  exact ⟨d, hset.1, (Tank.processLosses_ok _ _ (by exact hc.volume_pos.ne') _ _ _ d).1, a, b, c, hloss⟩

theorem Sim.Insulated.of_cfg {s s' : Sim n k} (h : s.Insulated) (h1 : s'.tank.toTankCfg = s.tank.toTankCfg)
    (h2 : s'.cfg = s.cfg) : s'.Insulated ∧ s'.wallShare = s.wallShare ∧ s'.nodeShare = s.nodeShare := by
  have e : ∀ x, s'.tank.tau x = s.tank.tau x := fun x => by unfold Tank.tau; rw [h1]
  refine ⟨⟨by rw [h1]; exact h.volume, by rw [h1]; exact h.nodeVolume, by rw [h1]; exact h.nodeCp,
    by rw [h2]; exact h.step, by rw [h1]; exact h.ends, by rw [h1]; exact h.side, by rw [e, h1, h2]; exact h.gentle,
    by rw [h2]; exact h.room⟩, ?_, ?_⟩
  · unfold Sim.wallShare; rw [h1, h2]
  · unfold Sim.nodeShare; rw [h1, h2]

theorem undisturbed_history {m : Libm} {fuel N : ℕ} {s : ℕ → Sim n k} {u : ℕ → StepInput} {amb : ℚ}
    (h : Sim.History m fuel N s u) (h0 : (s 0).Insulated) (hu : ∀ t < N, (s t).Undisturbed (u t) amb) :
    ∀ t ≤ N, (s t).Insulated ∧ (s t).wallShare = (s 0).wallShare ∧ (s t).nodeShare = (s 0).nodeShare ∧
      (s t).tank.toTankCfg = (s 0).tank.toTankCfg := by
  intro t
  induction t with
  | zero => exact fun _ => ⟨h0, rfl, rfl, rfl⟩
  | succ t ih =>
    intro ht
    obtain ⟨i1, i2, i3, i4⟩ := ih (by omega)
    obtain ⟨-, c1, c2, -⟩ := (hu t (by omega)).step i1 (h t (by omega))
    obtain ⟨a, b, c⟩ := i1.of_cfg c2 c1
    exact ⟨a, b.trans i2, c.trans i3, c2.trans i4⟩

/-- **C95.** The water of a tank left alone approaches the temperature of the air around it: from wherever it starts,
hot, cold or mixed, its largest distances from the air's temperature, above and below, shrink in every step at least by
the share of the heat that the wall lets through. -/
theorem C95_approaches (m : Libm) (fuel N : ℕ) (s : ℕ → Sim n k) (u : ℕ → StepInput) (amb above below : ℚ)
    (h : Sim.History m fuel N s u) (h0 : (s 0).Insulated) (hu : ∀ t < N, (s t).Undisturbed (u t) amb)
    (ha : 0 ≤ above) (hb : 0 ≤ below)
    (hT : ∀ j, amb - below ≤ (s 0).tank.nodeTs j ∧ (s 0).tank.nodeTs j ≤ amb + above) :
    ∀ t ≤ N, ∀ j, amb - (1 - (s 0).wallShare) ^ t * below ≤ (s t).tank.nodeTs j ∧
      (s t).tank.nodeTs j ≤ amb + (1 - (s 0).wallShare) ^ t * above := by
  have hist := undisturbed_history h h0 hu
  obtain ⟨q1, q2, -, q4⟩ := h0.shares
  have hq : 0 ≤ 1 - (s 0).wallShare := by linarith
  intro t
  induction t with
  | zero => intro _ j; simpa using hT j
  | succ t ih =>
    intro ht j
    obtain ⟨i1, i2, i3, -⟩ := hist t (by omega)
    obtain ⟨d, -⟩ := (hu t (by omega)).step i1 (h t (by omega))
    have ih := ih (by omega)
    have p1 : 0 ≤ (1 - (s 0).wallShare) ^ t * above := mul_nonneg (pow_nonneg hq t) ha
    have p2 : 0 ≤ (1 - (s 0).wallShare) ^ t * below := mul_nonneg (pow_nonneg hq t) hb
    have := losses_shrink i1 _ amb (-((1 - (s 0).wallShare) ^ t * below)) ((1 - (s 0).wallShare) ^ t * above)
      (fun j => ⟨by linarith [(ih j).1], (ih j).2⟩) d (-((1 - (s 0).wallShare) ^ (t + 1) * below))
      ((1 - (s 0).wallShare) ^ (t + 1) * above)
      (fun c hc _ => by rw [i2] at hc; rw [pow_succ]; nlinarith)
      (fun c hc _ => by rw [i2] at hc; rw [pow_succ]; nlinarith) j
    exact ⟨by linarith [this.1], this.2⟩

/-- **C95.** It does so slowly: water that is at least `excess` warmer than the air keeps, in every step, all but the
share that a node with top, bottom and its part of the wall would lose; in particular it stays warmer than the air. -/
theorem C95_keeps_warm (m : Libm) (fuel N : ℕ) (s : ℕ → Sim n k) (u : ℕ → StepInput) (amb excess : ℚ)
    (h : Sim.History m fuel N s u) (h0 : (s 0).Insulated) (hu : ∀ t < N, (s t).Undisturbed (u t) amb)
    (he : 0 ≤ excess) (hT : ∀ j, amb + excess ≤ (s 0).tank.nodeTs j) :
    ∀ t ≤ N, ∀ j, amb + (1 - (s 0).nodeShare) ^ t * excess ≤ (s t).tank.nodeTs j := by
  have hist := undisturbed_history h h0 hu
  obtain ⟨q1, q2, -, q4⟩ := h0.shares
  have hq : 0 ≤ 1 - (s 0).nodeShare := by linarith
  intro t
  induction t with
  | zero => intro _ j; simpa using hT j
  | succ t ih =>
    intro ht j
    obtain ⟨i1, i2, i3, -⟩ := hist t (by omega)
    obtain ⟨d, -⟩ := (hu t (by omega)).step i1 (h t (by omega))
    have ih := ih (by omega)
    have p1 : 0 ≤ (1 - (s 0).nodeShare) ^ t * excess := mul_nonneg (pow_nonneg hq t) he
    obtain ⟨H, hH⟩ : ∃ H, ∀ j, (s t).tank.nodeTs j ≤ H :=
      ⟨Finset.univ.sup' ⟨0, Finset.mem_univ _⟩ (s t).tank.nodeTs, fun j => Finset.le_sup' _ (Finset.mem_univ j)⟩
    have hH0 : 0 ≤ H - amb := by have := ih 0; have := hH 0; linarith
    have := losses_shrink i1 _ amb ((1 - (s 0).nodeShare) ^ t * excess) (H - amb)
      (fun j => ⟨ih j, by linarith [hH j]⟩) d ((1 - (s 0).nodeShare) ^ (t + 1) * excess) (H - amb)
      (fun c _ hc => by rw [i3] at hc; rw [pow_succ]; nlinarith)
      (fun c hc _ => by rw [i2] at hc; nlinarith) j
    exact this.1

/-- **C95.** A tank without heat sources is left alone whenever no water is drawn. -/
theorem C95_storage (m : Libm) (fuel N : ℕ) (s : ℕ → Sim n 0) (u : ℕ → StepInput) (amb : ℚ)
    (h : Sim.History m fuel N s u) (h0 : (s 0).Insulated) (hh : (s 0).isHeating = false)
    (hd : ∀ t < N, (u t).draw_L = 0) (hx : ∀ t < N, (u t).extraHeat_W = []) (ha : ∀ t < N, (u t).tankAmbient = amb)
    (hdr : ∀ t < N, (u t).dr.too = false ∧ (u t).dr.tot = false) : ∀ t < N, (s t).Undisturbed (u t) amb := by
  have top : ∀ t < N, ¬ ToppingOff (s t) (u t).dr := by
    intro t ht e
    obtain ⟨d1, d2⟩ := hdr t ht
    rcases e.1 with e | e
    · rw [d1] at e; cases e
    · rw [d2] at e; cases e
  have one : ∀ t < N, (s t).isHeating = false → (s t).Undisturbed (u t) amb := fun t ht hh =>
    ⟨hd t ht, hx t ht, ha t ht, .inr ⟨fun i => i.elim0, hh, top t ht, fun _ _ i => i.elim0⟩⟩
  have key : ∀ t ≤ N, (s t).Insulated ∧ (s t).isHeating = false := by
    intro t
    induction t with
    | zero => exact fun _ => ⟨h0, hh⟩
    | succ t ih =>
      intro ht
      obtain ⟨i1, i2⟩ := ih (by omega)
      obtain ⟨-, c1, c2, c3, -⟩ := (one t (by omega) i2).step i1 (h t (by omega))
      exact ⟨(i1.of_cfg c2 c1).1, c3⟩
  exact fun t ht => one t ht (key t ht.le).2

/-- **C95.** The heat it loses is the heat reported: in every step the heat stored falls by the standby losses reported,
which are not negative if the water started no colder than the air. No heat source delivers heat. -/
theorem C95_heat (m : Libm) (fuel N : ℕ) (s : ℕ → Sim n k) (u : ℕ → StepInput) (amb : ℚ)
    (h : Sim.History m fuel N s u) (h0 : (s 0).Insulated) (hu : ∀ t < N, (s t).Undisturbed (u t) amb) :
    (∀ t < N, tankHeat (s 0).tank.volume_L (s (t + 1)).tank.nodeTs =
        tankHeat (s 0).tank.volume_L (s t).tank.nodeTs - 3600 * (s (t + 1)).standbyLosses_kWh ∧
      ∀ i, ((s (t + 1)).st i).energyOutput_kWh = 0) ∧
    ((∀ j, amb ≤ (s 0).tank.nodeTs j) → ∀ t < N, 0 ≤ (s (t + 1)).standbyLosses_kWh) := by
  have hist := undisturbed_history h h0 hu
  constructor
  · intro t ht
    obtain ⟨i1, -, -, i4⟩ := hist t ht.le
    obtain ⟨d, -, -, -, -, e, l⟩ := (hu t ht).step i1 (h t ht)
    have hc := i1.consistent
    obtain ⟨-, -, f⟩ := C06_losses_accounted { (s t).tank with outletT := 0, standbyLosses_kJ := 0 } _
      ⟨hc.volume_pos, hc.nodeVolume, hc.nodeCp⟩ _ _ _ d
    refine ⟨?_, e⟩
    rw [l, ← i4]
    dsimp only at f
    linarith
  · intro hw t ht
    obtain ⟨i1, -, -, -⟩ := hist t ht.le
    obtain ⟨d, -, -, -, -, -, l⟩ := (hu t ht).step i1 (h t ht)
    have hc := i1.consistent
    have f := C06_losses_value { (s t).tank with outletT := 0, standbyLosses_kJ := 0 } _
      ⟨hc.volume_pos, hc.nodeVolume, hc.nodeCp⟩ _ _ _ d
    have warm := C95_keeps_warm m fuel N s u amb 0 h h0 hu le_rfl (by simpa using hw) t ht.le
    simp only [mul_zero, add_zero] at warm
    have hm : 0 ≤ (s t).cfg.minutesPerStep / 60 := div_nonneg i1.step (by norm_num)
    rw [l]
    have : 0 ≤ (s (t + 1)).tank.standbyLosses_kJ := by
      simp only [sub_zero] at f
      rw [f]
      unfold Spec.standbyLoss
      have m1 : 0 ≤ (∑ j, (s t).tank.nodeTs j) / (n + 1) - amb := by
        have hN : (0 : ℚ) < n + 1 := by positivity
        rw [sub_nonneg, le_div_iff₀ hN]
        have := Finset.card_nsmul_le_sum Finset.univ (s t).tank.nodeTs amb fun j _ => warm j
        simp only [Finset.card_univ, Fintype.card_fin, nsmul_eq_mul] at this
        push_cast at this
        linarith
      have a1 := mul_nonneg (mul_nonneg i1.ends hm) (sub_nonneg.mpr (warm 0))
      have a2 := mul_nonneg (mul_nonneg i1.ends hm) (sub_nonneg.mpr (warm (Fin.last n)))
      have a3 := mul_nonneg (mul_nonneg i1.side hm) m1
      dsimp only at *
      linarith
    positivity

/-- **C95.** Left alone for long enough, a tank whose wall lets heat through is as near to the temperature of the air as
one likes, however hot or cold it was. How long is enough depends only on how far from the air it started and on the
share lost per step. -/
theorem C95_eventually (amb far near q : ℚ) (hq : 0 < q) (hn : 0 < near) :
    ∃ N0, ∀ (n k : ℕ) (m : Libm) (fuel N : ℕ) (s : ℕ → Sim n k) (u : ℕ → StepInput), Sim.History m fuel N s u →
      (s 0).Insulated → (∀ t < N, (s t).Undisturbed (u t) amb) → q ≤ (s 0).wallShare →
      (∀ j, |(s 0).tank.nodeTs j - amb| ≤ far) → ∀ t, N0 ≤ t → t ≤ N → ∀ j, |(s t).tank.nodeTs j - amb| < near := by
  rcases le_or_gt q 1 with hq1 | hq1
  swap
  · refine ⟨0, fun n k m fuel N s u _ h0 _ hw => ?_⟩
    have := h0.shares
    linarith
  obtain ⟨N0, hN0⟩ := exists_pow_lt_of_lt_one (show 0 < near / (|far| + 1) by positivity) (show 1 - q < 1 by linarith)
  refine ⟨N0, fun n k m fuel N s u h h0 hu hw hT t ht htN j => ?_⟩
  have hfar : 0 ≤ far := (abs_nonneg _).trans (hT 0)
  have key := C95_approaches m fuel N s u amb far far h h0 hu hfar hfar
    (fun j => by have := abs_le.mp (hT j); constructor <;> linarith [this.1, this.2]) t htN j
  obtain ⟨w1, w2, -, w4⟩ := h0.shares
  have p1 : (1 - (s 0).wallShare) ^ t ≤ (1 - q) ^ N0 :=
    (pow_le_pow_left₀ (by linarith) (by linarith) t).trans (pow_le_pow_of_le_one (by linarith) (by linarith) ht)
  have p2 : (1 - (s 0).wallShare) ^ t * far < near := by
    have : (1 - (s 0).wallShare) ^ t < near / (far + 1) := by
      rw [abs_of_nonneg hfar] at hN0
      exact lt_of_le_of_lt p1 hN0
    have hp : 0 ≤ (1 - (s 0).wallShare) ^ t := pow_nonneg (by linarith) t
    have := (lt_div_iff₀ (by linarith)).mp this
    nlinarith
  rw [abs_lt]
  constructor <;> linarith [key.1, key.2]

/-- A minute without draw in which all heat sources are locked out, in air at 20 °C. -/
def idleMinute : StepInput := ⟨0, 20, 20, ⟨true, true, false, false⟩, 0, 0, []⟩

/-- The states of the sample system over two such minutes. -/
def idleStates : ℕ → Sim 3 2
  | 0 => sampleSim
  | t + 1 => match Sim.runOneStep sampleLibm 5 (idleStates t) idleMinute with
    | .ok s' => s'
    | .error _ => idleStates t

/-- The hypotheses are met: the sample system, locked out for two minutes; its wall lets heat through, and its hottest
water cools. -/
example : Sim.History sampleLibm 5 2 idleStates (fun _ => idleMinute) ∧ (idleStates 0).Insulated ∧
    (∀ t < 2, (idleStates t).Undisturbed idleMinute 20) ∧ 0 < (idleStates 0).wallShare ∧
    (∀ j, 20 - 15 ≤ (idleStates 0).tank.nodeTs j ∧ (idleStates 0).tank.nodeTs j ≤ 20 + 35) ∧
    (idleStates 2).tank.nodeTs 3 < (idleStates 0).tank.nodeTs 3 := by
  have b := sampleSim_between
  refine ⟨fun t ht => ?_, ⟨b.volume, b.nodeVolume, b.nodeCp, b.step, b.ends, b.side, b.gentle, by decide +kernel⟩,
    fun t _ => ⟨rfl, rfl, rfl, .inl ⟨rfl, rfl⟩⟩, by decide +kernel, by decide +kernel, by decide +kernel⟩
  have key : ∀ t < 2, ∃ s', Sim.runOneStep sampleLibm 5 (idleStates t) idleMinute = .ok s' ∧ True := by decide +kernel
  obtain ⟨s', e, -⟩ := key t ht
  change _ = Except.ok (match Sim.runOneStep sampleLibm 5 (idleStates t) idleMinute with
    | .ok s' => s'
    | .error _ => idleStates t)
  rw [e]

end HPWH
