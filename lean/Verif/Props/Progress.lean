import Verif.Spec.Progress
import Verif.Props.Fuel
import Verif.Props.External
import Verif.Props.SinglePass
import Verif.Props.Memory
import Mathlib.Tactic.FinCases

/-! # Steps of a proper water heater do not fail (C100) -/

namespace HPWH

open Spec
open _root_.HPWH.Units

variable {n k : ℕ} {α β : Type}

namespace Returns

theorem const {x : Res α} {y : α} (h : x = .ok y) : Returns fun _ => x := ⟨0, y, fun _ _ => h⟩

theorem pure (y : α) : Returns fun _ => (.ok y : Res α) := const rfl

theorem bind {x : ℕ → Res α} {f : ℕ → α → Res β} (hx : Returns x)
    (hf : ∀ y b, (∀ fuel, b ≤ fuel → x fuel = .ok y) → Returns fun fuel => f fuel y) :
    Returns fun fuel => x fuel >>= f fuel := by
  obtain ⟨b1, y, h1⟩ := hx
  obtain ⟨b2, z, h2⟩ := hf y b1 h1
  refine ⟨max b1 b2, z, fun fuel h => ?_⟩
  dsimp only
  rw [h1 fuel (le_trans (le_max_left _ _) h)]
  exact h2 fuel (le_trans (le_max_right _ _) h)

/-- The first part does not depend on the bound. -/
theorem bindConst {x : Res α} {f : ℕ → α → Res β} (hx : ∃ y, x = .ok y)
    (hf : ∀ y, x = .ok y → Returns fun fuel => f fuel y) : Returns fun fuel => x >>= f fuel := by
  obtain ⟨y, e⟩ := hx
  exact bind (x := fun _ => x) (const e) fun y b h => hf y (h b le_rfl)

theorem ite {c : Prop} [Decidable c] {x y : ℕ → Res α} (hx : c → Returns x) (hy : ¬ c → Returns y) :
    Returns fun fuel => if c then x fuel else y fuel := by
  by_cases h : c
  · simpa [h] using hx h
  · simpa [h] using hy h

end Returns

theorem bind_returns {x : Res α} {f : α → Res β} (hx : ∃ y, x = .ok y) (hf : ∀ y, x = .ok y → ∃ z, f y = .ok z) :
    ∃ z, (x >>= f) = .ok z := by
  obtain ⟨y, e⟩ := hx
  rw [e]
  exact hf y e

/-! ## Control -/

/-- All logics of all heat sources can be evaluated. -/
def LogicsUsable (s : Sim n k) : Prop :=
  ∀ i l, l ∈ (s.cfg.src i).turnOn ∨ l ∈ (s.cfg.src i).shutOff ∨ (s.cfg.src i).standby = some l → l.Usable s.toPlant

theorem LogicsUsable.ctrl {s s' : Sim n k} (h : LogicsUsable s) (hc : CtrlEq s s') : LogicsUsable s' := by
  intro i l hl
  rw [hc.cfg] at hl
  rw [hc.plant]
  exact h i l hl

theorem LogicsUsable.shutsOff {s : Sim n k} (h : LogicsUsable s) (i : Fin k) :
    ∃ b, (s.cfg.src i).shutsOff s.toPlant = .ok b :=
  shutsOff_ok _ _ fun l hl => h i l (.inr (.inl hl))

theorem wantsHeat_ok (s : SourceCfg n k) (p : Plant n) (l : Logic) (hl : l.Usable p)
    (hs : ∀ x, s.standby = some x → x.Usable p) : ∃ b, s.wantsHeat p l = .ok b := by
  unfold SourceCfg.wantsHeat
  refine bind_returns hl.tankValue fun v _ => ?_
  split_ifs
  · split
    · rename_i st _ e
      exact bind_returns (hs _ e).tankValue fun v _ => ⟨_, rfl⟩
    · exact ⟨_, rfl⟩
  · exact ⟨_, rfl⟩

theorem shouldHeatLoop_ok (s : SourceCfg n k) (p : Plant n) (hs : ∀ x, s.standby = some x → x.Usable p) :
    ∀ ls : List Logic, (∀ l ∈ ls, l.Usable p) → ∃ b, s.shouldHeatLoop p ls = .ok b
  | [], _ => ⟨_, rfl⟩
  | l :: ls, h => by
    rw [SourceCfg.shouldHeatLoop]
    refine bind_returns (wantsHeat_ok s p l (h l (by simp)) hs) fun b _ => ?_
    split_ifs
    · exact ⟨_, rfl⟩
    · exact shouldHeatLoop_ok s p hs ls fun x hx => h x (by simp [hx])

theorem LogicsUsable.shouldHeat {s : Sim n k} (h : LogicsUsable s) (i : Fin k) :
    ∃ b, (s.cfg.src i).shouldHeat s.toPlant = .ok b := by
  unfold SourceCfg.shouldHeat
  refine bind_returns (shouldHeatLoop_ok _ _ (fun x hx => h i x (.inr (.inr hx))) _ fun l hl => h i l (.inl hl))
    fun b _ => ?_
  split_ifs
  · exact bind_returns (h.shutsOff i) fun _ _ => ⟨_, rfl⟩
  · exact ⟨_, rfl⟩

theorem LogicsUsable.engage {s : Sim n k} (h : LogicsUsable s) (dr : DR) (i : Fin k) : ∃ s', s.engage dr i = .ok s' := by
  have key : ∀ (fuel : ℕ) (s : Sim n k) (i : Fin k), LogicsUsable s →
      (∃ s', Sim.engageAux dr fuel s i = .ok s') ∨ Sim.engageAux dr fuel s i = .error .diverge := by
    intro fuel
    induction fuel with
    | zero => intro s i _; exact .inr rfl
    | succ fuel ih =>
      intro s i h
      have h1 : LogicsUsable ({ s.setSt i { s.st i with isOn := true } with isHeating := true } : Sim n k) :=
        h.ctrl ((CtrlEq.setSt s i true (s.st i).lockedOut).trans (CtrlEq.heating _ true))
      unfold Sim.engageAux
      cases e : (s.cfg.src i).companion with
      | none => exact .inl ⟨_, rfl⟩
      | some j =>
        dsimp only
        obtain ⟨b, hb⟩ := h1.shutsOff j
        have hb : (s.cfg.src j).shutsOff
          ({ s.setSt i { s.st i with isOn := true } with isHeating := true } : Sim n k).toPlant = .ok b := hb
        rw [hb]
        dsimp only [Bind.bind, Except.bind]
        split_ifs
        · exact ih _ j h1
        · exact .inl ⟨_, rfl⟩
  rcases key (k + 1) s i h with e | e
  · exact e
  · exact absurd e (CtrlEq.engage_ne_diverge dr s i)

theorem LogicsUsable.handOver {s : Sim n k} (h : LogicsUsable s) (dr : DR) (i : Fin k) :
    ∃ s', s.handOver dr i = .ok s' := by
  unfold Sim.handOver
  refine bind_returns ?_ fun off _ => ?_
  · unfold Sim.engagedShutsOff
    split_ifs
    · exact h.shutsOff i
    · exact ⟨_, rfl⟩
  · split_ifs
    · split
      · exact ⟨_, rfl⟩
      · rename_i b _
        refine bind_returns (h.shutsOff b) fun boff _ => ?_
        split_ifs
        · exact ⟨_, rfl⟩
        · exact (h.ctrl (CtrlEq.disengage s i)).engage dr b
    · exact ⟨_, rfl⟩

theorem LogicsUsable.chooseBody {s : Sim n k} (h : LogicsUsable s) (dr : DR) (i : Fin k) :
    ∃ r, s.chooseBody dr i = .ok r := by
  unfold Sim.chooseBody
  by_cases hh : s.isHeating = true
  · rw [if_pos hh]
    refine bind_returns (h.handOver dr i) fun s1 h1 => ?_
    have c1 := CtrlEq.handOver h1
    have u1 := h.ctrl c1
    by_cases hv : (s.cfg.src i).isVIP = true
    · rw [if_pos hv]
      refine bind_returns (by rw [← c1.cfg]; exact u1.shouldHeat i) fun want _ => ?_
      by_cases hw : want = true
      · rw [if_pos hw]
        split
        · split
          · exact bind_returns (u1.engage dr _) fun _ _ => ⟨_, rfl⟩
          · exact ⟨_, rfl⟩
        · exact bind_returns ((u1.ctrl (CtrlEq.turnAllOff s1)).engage dr i) fun _ _ => ⟨_, rfl⟩
      · rw [if_neg hw]; exact ⟨_, rfl⟩
    · rw [if_neg hv]; exact ⟨_, rfl⟩
  · rw [if_neg hh]
    refine bind_returns (h.shouldHeat i) fun want _ => ?_
    by_cases hw : want = true
    · rw [if_pos hw]; exact bind_returns (h.engage dr i) fun _ _ => ⟨_, rfl⟩
    · rw [if_neg hw]; exact ⟨_, rfl⟩

theorem LogicsUsable.chooseLoop (dr : DR) : ∀ (is : List (Fin k)) {s : Sim n k}, LogicsUsable s →
    ∃ s', s.chooseLoop dr is = .ok s'
  | [], _, _ => ⟨_, rfl⟩
  | i :: is, s, h => by
    rw [Sim.chooseLoop]
    refine bind_returns (h.chooseBody dr i) fun r hr => ?_
    split_ifs
    · exact ⟨_, rfl⟩
    · exact LogicsUsable.chooseLoop dr is (h.ctrl (CtrlEq.chooseBody hr))

theorem LogicsUsable.engageIf {s : Sim n k} (h : LogicsUsable s) (dr : DR) (o : Option (Fin k)) :
    ∃ s', s.engageIf dr o = .ok s' := by
  cases o with
  | none => exact ⟨_, rfl⟩
  | some j => exact h.engage dr j

theorem LogicsUsable.topOff {s : Sim n k} (h : LogicsUsable s) (dr : DR) : ∃ s', s.topOff dr = .ok s' := by
  unfold Sim.topOff
  split_ifs
  · exact bind_returns (h.engageIf dr _) fun s1 h1 => (h.ctrl (CtrlEq.engageIf h1)).engageIf dr _
  · exact ⟨_, rfl⟩

theorem LogicsUsable.maxedOut {s : Sim n k} (h : LogicsUsable s) (i : Fin k) :
    ∃ b, (s.cfg.src i).maxedOut s.toPlant = .ok b := by
  unfold SourceCfg.maxedOut
  split
  · exact ⟨_, rfl⟩
  · split_ifs
    · exact ⟨_, rfl⟩
    · exact h.shutsOff i
    · exact ⟨_, rfl⟩

theorem LogicsUsable.toLockOrUnlock {s : Sim n k} (h : LogicsUsable s) (i : Fin k) (c : CondCfg) (st : SourceState)
    (amb : ℚ) : ∃ x, toLockOrUnlock (s.cfg.src i) c st s.toPlant amb = .ok x := by
  obtain ⟨mx, hm⟩ := h.maxedOut i
  unfold HPWH.toLockOrUnlock
  refine bind_returns ?_ fun l _ => bind_returns ?_ fun u _ => ⟨_, rfl⟩
  · unfold shouldLockOut
    rw [hm]
    split_ifs <;> exact ⟨_, rfl⟩
  · unfold shouldUnlock
    rw [hm]
    cases mx <;> split_ifs <;> exact ⟨_, rfl⟩

theorem LogicsUsable.applyLocks {s : Sim n k} (h : LogicsUsable s) (dr : DR) (amb : ℚ) (i : Fin k) :
    ∃ s', s.applyLocks dr amb i = .ok s' := by
  unfold Sim.applyLocks
  refine bind_returns ?_ fun s1 _ => ?_
  · unfold Sim.lockUnlock
    split_ifs
    · exact ⟨_, rfl⟩
    · split
      · exact bind_returns (h.toLockOrUnlock i _ _ amb) fun _ _ => ⟨_, rfl⟩
      · exact ⟨_, rfl⟩
  · split_ifs <;> exact ⟨_, rfl⟩

theorem LogicsUsable.pickSource {s : Sim n k} (h : LogicsUsable s) (dr : DR) (amb : ℚ) (i : Fin k) :
    ∃ r, s.pickSource dr amb i = .ok r := by
  unfold Sim.pickSource
  split_ifs
  · split
    · exact ⟨_, rfl⟩
    · rename_i b _
      refine bind_returns ?_ fun r _ => ?_
      · unfold Sim.backupBarred
        dsimp only
        split
        · exact bind_returns (h.toLockOrUnlock b _ _ amb) fun _ _ => ⟨_, rfl⟩
        · split <;> exact ⟨_, rfl⟩
      · split_ifs <;> exact ⟨_, rfl⟩
  · exact ⟨_, rfl⟩

theorem LogicsUsable.follower {s : Sim n k} (h : LogicsUsable s) (i : Fin k) : ∃ r, s.follower i = .ok r := by
  unfold Sim.follower
  split
  · exact ⟨_, rfl⟩
  · exact bind_returns (h.shutsOff _) fun _ _ => ⟨_, rfl⟩

/-! ## Performance -/

theorem defrostSearch_ok (airT : ℚ) : ∀ (prev : ℚ × ℚ) (qs : List (ℚ × ℚ)) (h : qs ≠ []),
    airT ≤ (qs.getLast h).1 → ∃ f, CondCfg.defrostSearch airT prev qs = .ok f
  | _, [], h, _ => absurd rfl h
  | prev, q :: qs, h, hl => by
    rw [CondCfg.defrostSearch]
    split_ifs with hq
    · exact ⟨_, rfl⟩
    · cases qs with
      | nil => exact absurd hl hq
      | cons r rs =>
        refine defrostSearch_ok airT q (r :: rs) (by simp) ?_
        rwa [List.getLast_cons (by simp)] at hl

theorem defrostFactor_ok (map : List (ℚ × ℚ)) (h : map ≠ []) (airT : ℚ) :
    ∃ f, CondCfg.defrostFactor map airT = .ok f := by
  cases map with
  | nil => exact absurd rfl h
  | cons q qs =>
    unfold CondCfg.defrostFactor
    dsimp only
    split_ifs with hc
    · exact ⟨_, rfl⟩
    · push Not at hc
      cases qs with
      | nil => exact absurd hc.2 (by simpa using hc.1.le)
      | cons r rs =>
        refine defrostSearch_ok airT q (r :: rs) (by simp) ?_
        have := hc.2
        rw [List.getLast_cons (by simp)] at this
        exact this.le

theorem getPerformance_ok (c : CondCfg) (h : c.doDefrost = true → c.defrostMap ≠ []) (airflow x air w : ℚ) :
    ∃ perf, c.getPerformance airflow x air w = .ok perf := by
  unfold CondCfg.getPerformance
  dsimp only
  by_cases hd : c.doDefrost = true
  · rw [if_pos hd]
    exact bind_returns (defrostFactor_ok _ (h hd) _) fun _ _ => ⟨_, rfl⟩
  · rw [if_neg hd]
    exact ⟨_, rfl⟩

/-! ## Heating -/

/-- The conditions of `Sim.Ready` only depend on settings. -/
theorem Sim.Ready.congr {s s' : Sim n k} {lo : ℚ} {hi : WithTop ℚ} {airLo airHi : ℚ} (h : s.Ready lo hi airLo airHi)
    (h1 : s'.cfg = s.cfg) (h2 : s'.setpoint = s.setpoint) (h3 : s'.socControl = s.socControl)
    (h4 : s.haveInletT = true → s'.haveInletT = true) : s'.Ready lo hi airLo airHi := by
  have hn : ∀ x, s'.newSetpointPossible x = s.newSetpointPossible x := fun x => by
    unfold Sim.newSetpointPossible; rw [h1, h2]
  have hcv : ∀ (l : Logic) x, l.comparisonValue { s'.toPlant with setpoint := x } =
      l.comparisonValue { s.toPlant with setpoint := x } := fun l x => by
    unfold Logic.comparisonValue; rfl
  constructor
  · rw [h1]; exact h.step
  · rw [h1]; exact h.minute
  · intro i l hl
    rw [h1] at hl
    have := h.logics i l hl
    unfold Logic.Usable at *
    split at this <;> simp_all
    tauto
  · rw [h1]; exact h.defrost
  · intro i c air; rw [h1, h2, hn, hn]; exact h.coldAir i c air
  · rw [h1, h2, h3]; exact h.charge
  · rw [h1, h2]; exact h.backup
  · rw [h1]; exact h.looksAbove
  · rw [h1, h2]; exact h.bounded
  · intro i c x
    rw [h1, h2]
    simp only [hcv]
    exact h.finishes i c x

/-- A heat source runs, at any of the setpoints it may be run at. -/
theorem addHeatKind_returns (m : Libm) (hexp : ∀ x, 0 ≤ m.exp x) {s0 : Sim n k} {lo : ℚ} {hi : WithTop ℚ}
    {airLo airHi : ℚ} (hr : s0.Ready lo hi airLo airHi) (i : Fin k) (p : Plant n) (st : SourceState) (x amb minutes : ℚ)
    (hS : (s0.cfg.src i).Sound s0.setpoint amb lo hi) (hn : n + 1 ≤ 10000) (ht : p.tank.Consistent)
    (hmix : p.tank.doInversionMixing = true) (hm : Monotone p.tank.nodeTs) (hlo : ∀ j, lo ≤ p.tank.nodeTs j)
    (hhi : ∀ j, (p.tank.nodeTs j : WithTop ℚ) ≤ hi) (hset : (s0.setpoint : WithTop ℚ) ≤ hi) (hamb : Lies airLo airHi amb)
    (hmin : 0 < minutes) (hpx : p.setpoint = x)
    (hx : ∀ c, (s0.cfg.src i).kind = .condenser c → c.RunsAt s0.setpoint x)
    (hus : ∀ l ∈ (s0.cfg.src i).shutOff, l.Usable p) (hsoc : p.SoCUsable) :
    Returns fun fuel => Sim.addHeatKind m fuel (s0.cfg.src i) p st amb minutes := by
  cases hk : (s0.cfg.src i).kind with
  | resistance power =>
    obtain ⟨hp, hd⟩ := hS.resistance power hk
    obtain ⟨T', st', e, -⟩ := resistanceAddHeat_spec (s0.cfg.src i) power p st minutes hp hmin ht.nodeCp_pos hm hd
    simp only [Sim.addHeatKind, hk]
    exact Returns.const e
  | condenser c =>
    have hxc := hx c hk
    have hxx : x = s0.setpoint ∨ x = c.maxOutT := hxc.imp_right And.left
    have hxle : x ≤ s0.setpoint := by
      rcases hxc with e | ⟨e, h⟩
      · exact e.le
      · rw [e]; exact h
    have hxhi : (x : WithTop ℚ) ≤ hi := (WithTop.coe_le_coe.mpr hxle).trans hset
    have hok := getPerformance_ok c (hr.defrost i c hk)
    simp only [Sim.addHeatKind, hk]
    by_cases hc : c.configuration = .external
    · obtain ⟨h1, h2, h3⟩ := hS.external c hk hc
      have hdraw : ∀ w, p.MayDraw c w → lo ≤ w ∧ (w : WithTop ℚ) ≤ hi := by
        rintro w ⟨⟨j, hj⟩, hw⟩
        refine ⟨(hlo j).trans hj, ?_⟩
        cases hmu : c.isMultipass with
        | true => rw [(h2 hmu).2]; exact le_top
        | false =>
          have := (hw hmu).le.trans (min_le_right _ _)
          rw [hpx] at this
          exact (WithTop.coe_le_coe.mpr this).trans hxhi
      have hpos : ∀ w perf, p.MayDraw c w →
          c.getPerformance (s0.cfg.src i).airflowFreedom p.setpoint amb w = .ok perf → 0 < perf.outputPower_W :=
        fun w perf hw hp => hS.output c hk x hxx w perf (hdraw w hw).1 (hdraw w hw).2 (by rw [← hpx]; exact hp)
      simp only [condenserAddHeat, hc]
      cases hmu : c.isMultipass with
      | true =>
        obtain ⟨p', st', hf, -⟩ := C17_multi_pass_energy (s0.cfg.src i) c p st amb minutes hmin ht h1 hmu (h2 hmu).1
          (fun w => hok _ _ _ w) hpos hus hsoc
        have hV : 0 < p.tank.volume_L / (n + 1) := div_pos ht.volume_pos (by positivity)
        obtain ⟨N, hN⟩ : ∃ N : ℕ, 60 * c.mpFlowRate_LPS * minutes / (p.tank.volume_L / (n + 1)) ≤ N :=
          ⟨_, Nat.le_ceil _⟩
        refine ⟨N, _, fun fuel hfuel => hf fuel ?_⟩
        rw [div_le_iff₀ hV] at hN
        have : (N : ℚ) ≤ fuel := by exact_mod_cast hfuel
        nlinarith
      | false =>
        obtain ⟨top, htop⟩ := hr.bounded i c hk hc hmu
        have hcase := hr.finishes i c x hk hc hmu hxc
        have key := C18_single_pass_finishes_partial (s0.cfg.src i) c p st amb minutes top hmin ht
          ((stratified_iff_monotone _).mpr hm) hmix h1 hmu (fun w => hok _ _ _ w)
          (fun w perf hw hp => ⟨hpos w perf hw hp,
            htop x amb w perf hxc hamb (hdraw w hw) (by rw [← hpx]; exact hp)⟩)
          hsoc (fun l hl => ⟨h3 hmu l hl, hus l hl, hr.looksAbove i c hk hc hmu l hl⟩)
          (by
            rw [hpx]
            rcases hcase with ⟨l, hl, hlt⟩ | ⟨a1, a2, a3, a4⟩
            · left
              refine ⟨l, hl, ?_⟩
              have e : l.comparisonValue p = l.comparisonValue { s0.toPlant with setpoint := x } := by
                unfold Logic.comparisonValue; rw [hpx]
              rw [e]; exact hlt
            · right
              exact ⟨a1, a2, a3, fun j => WithTop.coe_le_coe.mp ((hhi j).trans a4)⟩)
        obtain ⟨f0, r, hf⟩ := key
        refine ⟨f0, r, fun fuel hfuel => ?_⟩
        have hset : ∀ f, Settles (externalAddHeat f (s0.cfg.src i) c p st amb minutes)
            (externalAddHeat (f + 1) (s0.cfg.src i) c p st amb minutes) := fun f => by
          have := addHeatKind_settles m f (s0.cfg.src i) p st amb minutes
          simpa only [Sim.addHeatKind, hk, condenserAddHeat, hc] using this
        rcases settles_le _ hset hfuel with e | e
        · rw [hf] at e; cases e
        · exact e.symm.trans hf
    · obtain ⟨hd, hshr⟩ := hS.internal c hk hc
      obtain ⟨w, hw⟩ : ∃ w, (s0.cfg.src i).tankTemp p = .ok w := ⟨_, averageT_share _ hd _⟩
      obtain ⟨perf, hpf⟩ := hok (s0.cfg.src i).airflowFreedom p.setpoint amb w
      obtain ⟨b, hb, hb1, -⟩ := withTop_within p.tank.nodeTs hhi x hxhi
      obtain ⟨hw1, hw2⟩ := C22_weighted_average_range (s0.cfg.src i).heatDist hd p.tank.nodeTs w lo b hw
        (fun j => ⟨hlo j, hb1 j⟩)
      have hpos := hS.output c hk x hxx w perf hw1 ((WithTop.coe_le_coe.mpr hw2).trans hb) (by rw [← hpx]; exact hpf)
      obtain ⟨T', st2, cin, cout, he, -⟩ := internalAddHeat_spec m.exp hexp (s0.cfg.src i) c p st amb minutes
        hmin ht.nodeCp_pos hm hd hshr hn hc perf ⟨w, hw, hpf⟩ hpos
      cases hcc : c.configuration with
      | external => exact absurd hcc hc
      | submerged => simp only [condenserAddHeat, hcc]; exact Returns.const he
      | wrapped => simp only [condenserAddHeat, hcc]; exact Returns.const he

/-- What the heating of a step starts from. -/
structure Begun (s0 : Sim n k) (lo : ℚ) (hi : WithTop ℚ) (airLo airHi amb : ℚ) : Prop where
  ready : s0.Ready lo hi airLo airHi
  sound : ∀ j, (s0.cfg.src j).Sound s0.setpoint amb lo hi
  air : Lies airLo airHi amb
  nodes : n + 1 ≤ 10000
  consistent : s0.tank.Consistent
  mixing : s0.tank.doInversionMixing = true
  setpoint : (s0.setpoint : WithTop ℚ) ≤ hi
  absolute : Sim.noSetpoint < s0.setpoint
  charge : s0.toPlant.SoCUsable

namespace Begun

variable {m : Libm} {s0 s : Sim n k} {lo : ℚ} {hi : WithTop ℚ} {airLo airHi amb : ℚ}

theorem usable (h : Begun s0 lo hi airLo airHi amb) (inv : StepInv s0 s lo hi) : LogicsUsable s := by
  intro i l hl
  rw [inv.cfg] at hl
  exact (h.ready.logics i l hl).congr inv.same

theorem addHeat (h : Begun s0 lo hi airLo airHi amb) (hexp : ∀ x, 0 ≤ m.exp x) (inv : StepInv s0 s lo hi) (i : Fin k)
    {x minutes : ℚ} (hmin : 0 < minutes) (hx : x = s0.setpoint ∨ ∃ c, (s0.cfg.src i).kind = .condenser c ∧
      x = c.maxOutT ∧ c.maxOutT ≤ s0.setpoint) :
    Returns fun fuel => Sim.addHeat m fuel { s with setpoint := x } i amb minutes := by
  obtain ⟨q1, q2, q3, q4, q5⟩ := inv.same
  have hk := addHeatKind_returns m hexp h.ready i { s.toPlant with setpoint := x } (s.st i) x amb minutes (h.sound i)
    h.nodes (by change s.tank.Consistent; rw [q1]; exact ⟨h.consistent.volume_pos, h.consistent.nodeVolume, h.consistent.nodeCp⟩)
    (by change s.tank.doInversionMixing = true; rw [q1]; exact h.mixing) inv.mono inv.lower inv.upper h.setpoint h.air hmin
    rfl
    (by
      intro c hc
      rcases hx with e | ⟨c', hc', e, hle⟩
      · exact .inl e
      · rw [hc] at hc'; cases hc'; exact .inr ⟨e, hle⟩)
    (by
      intro l hl
      have := (h.usable inv) i l (.inr (.inl (by rw [inv.cfg]; exact hl)))
      unfold Logic.Usable at *
      exact this)
    (by
      intro q hq
      have hq' : s0.socControl = some q := by rw [← q5]; exact hq
      obtain ⟨a, b⟩ := h.charge q hq'
      refine ⟨?_, ?_⟩
      · unfold Plant.mainsT at *
        change (if q.useConstantMains = true then q.constantMains else s.inletT) < _
        rw [q3]; exact a
      · change q.tempMinUseful ≤ x
        rcases hx with e | ⟨c, hc, e, hle⟩
        · rw [e]; exact b
        · rw [e]; exact h.ready.charge i c q hc hq' hle)
  unfold Sim.addHeat
  rw [← inv.cfg] at hk
  exact hk.bind fun _ _ _ => Returns.pure _

theorem heat (h : Begun s0 lo hi airLo airHi amb) (hexp : ∀ x, 0 ≤ m.exp x) (inv : StepInv s0 s lo hi) (i : Fin k)
    {minutes : ℚ} (hmin : 0 < minutes) : Returns fun fuel => s.addHeatParent m fuel i amb minutes := by
  have q2 : s.setpoint = s0.setpoint := inv.same.2.1
  have here : Returns fun fuel => s.addHeat m fuel i amb minutes := by
    have := h.addHeat hexp inv i hmin (x := s.setpoint) (.inl q2)
    exact this
  unfold Sim.addHeatParent
  cases hk : (s.cfg.src i).kind with
  | resistance power => exact here
  | condenser c =>
    refine Returns.ite (fun hc => ?_) fun _ => here
    have hk0 : (s0.cfg.src i).kind = .condenser c := by rw [← inv.cfg]; exact hk
    have hle : c.maxOutT ≤ s0.setpoint := by rw [← q2]; exact hc.2
    obtain ⟨n1, n2⟩ := h.ready.coldAir i c amb hk0 h.air hc.1 hle
    have ncongr : ∀ x, s.newSetpointPossible x = s0.newSetpointPossible x := fun x => by
      unfold Sim.newSetpointPossible; rw [inv.cfg, q2]
    refine Returns.bindConst ⟨{ s with setpoint := c.maxOutT }, ?_⟩ fun s1 h1 => ?_
    · unfold Sim.setSetpoint; rw [ncongr, n1]; rfl
    · have e1 := setSetpoint_eq h1
      subst e1
      refine (h.addHeat hexp inv i hmin (.inr ⟨c, hk0, rfl, hle⟩)).bind fun s2 b hs2 => ?_
      refine Returns.ite (fun _ => Returns.const (y := { s2 with setpoint := s.setpoint }) ?_) fun _ => Returns.pure _
      have hcfg : s2.cfg = s.cfg := (addHeat_cfg (hs2 b le_rfl)).trans rfl
      obtain ⟨hkk, -⟩ := addHeat_spec (hs2 b le_rfl)
      have hsp : s0.cfg.setpointFixed = true → c.maxOutT = s.setpoint := fun hf => by
        unfold Sim.newSetpointPossible at n1
        rw [if_pos hf] at n1
        rw [q2]; exact of_decide_eq_true n1
      have hsp2 : s2.setpoint = c.maxOutT := by
        obtain ⟨q1, -⟩ := inv.same
        have hkk : Sim.addHeatKind m b (s.cfg.src i) { s.toPlant with setpoint := c.maxOutT } (s.st i) amb minutes =
          .ok (s2.toPlant, s2.st i) := hkk
        rw [inv.cfg] at hkk
        have sp := addHeatKind_spec m hexp b (s0.cfg.src i) { s.toPlant with setpoint := c.maxOutT } s2.toPlant (s.st i)
          (s2.st i) s0.setpoint amb minutes lo hi (h.sound i)
          (fun c' hc' => .inr (by rw [hk0] at hc'; cases hc'; rfl)) h.nodes
          (by
            change s.tank.Consistent
            rw [q1]; exact ⟨h.consistent.volume_pos, h.consistent.nodeVolume, h.consistent.nodeCp⟩)
          (by change s.tank.doInversionMixing = true; rw [q1]; exact h.mixing) inv.mono inv.lower inv.upper
          ((WithTop.coe_le_coe.mpr hle).trans h.setpoint) hmin.le hkk
        exact sp.same.2.1
      unfold Sim.setSetpoint
      have : s2.newSetpointPossible s.setpoint = true := by
        rw [← q2] at n2
        unfold Sim.newSetpointPossible at n2 ⊢
        rw [hcfg, inv.cfg]
        split_ifs at n2 ⊢ with hf
        · rw [hsp2]
          exact decide_eq_true (hsp hf).symm
        · exact n2
      rw [this]; rfl

theorem inv_heat (h : Begun s0 lo hi airLo airHi amb) (hexp : ∀ x, 0 ≤ m.exp x) (inv : StepInv s0 s lo hi) {i : Fin k}
    {minutes : ℚ} (hmin : 0 < minutes) (hle : minutes ≤ s0.cfg.minutesPerStep) {fuel : ℕ} {s' : Sim n k}
    (hs : s.addHeatParent m fuel i amb minutes = .ok s') :
    StepInv s0 s' lo hi ∧ 0 ≤ (s'.st i).runtime_min ∧ (s'.st i).runtime_min ≤ minutes :=
  StepInv.heat hexp (h.sound i) h.nodes h.consistent h.mixing h.setpoint h.absolute inv hmin.le hle hs

theorem afterEarly (h : Begun s0 lo hi airLo airHi amb) (inv : StepInv s0 s lo hi) (dr : DR) (i : Fin k) (minutes : ℚ) :
    ∃ s', (∀ fuel, Sim.afterEarly m fuel dr amb s i minutes = .ok s') ∧ CtrlEq s s' := by
  have c1 := CtrlEq.disengage s i
  have i1 := inv.ctrl c1
  have u1 := h.usable i1
  unfold Sim.afterEarly
  obtain ⟨f, hf⟩ := u1.follower i
  dsimp only
  rw [hf]
  cases f with
  | some f =>
    obtain ⟨s', e⟩ := u1.engage dr f
    exact ⟨s', fun _ => e, c1.trans (CtrlEq.engage e)⟩
  | none =>
    obtain ⟨mx, hmx⟩ := u1.maxedOut i
    have hmx' : (s.cfg.src i).maxedOut (s.disengage i).toPlant = .ok mx := hmx
    dsimp only [Bind.bind, Except.bind]
    rw [hmx']
    cases hb : (s.cfg.src i).backup with
    | none => exact ⟨_, fun _ => by cases mx <;> rfl, c1⟩
    | some b =>
      have : mx = false := by
        unfold SourceCfg.maxedOut at hmx'
        split at hmx'
        · exact (Except.ok.inj hmx').symm
        · rename_i c hk
          have := h.ready.backup i c (by rw [← inv.cfg]; exact hk) (by rw [← inv.cfg, hb]; simp)
          rw [if_neg] at hmx'
          · exact (Except.ok.inj hmx').symm
          · change ¬ s.setpoint > c.maxSetpoint
            rw [inv.same.2.1]; exact not_lt.mpr this
      rw [this]
      exact ⟨_, fun _ => rfl, c1⟩

theorem heatBody (h : Begun s0 lo hi airLo airHi amb) (hexp : ∀ x, 0 ≤ m.exp x) (inv : StepInv s0 s lo hi) (dr : DR)
    (i : Fin k) {minutes : ℚ} (hmin : 0 < minutes) (hle : minutes ≤ s0.cfg.minutesPerStep) :
    ∃ bound r, (∀ fuel, bound ≤ fuel → Sim.heatBody m fuel dr amb s i minutes = .ok r) ∧
      StepInv s0 r.1 lo hi ∧ 0 < r.2 ∧ r.2 ≤ s0.cfg.minutesPerStep := by
  unfold Sim.heatBody
  obtain ⟨s1, h1⟩ := (h.usable inv).applyLocks dr amb i
  have i1 := inv.ctrl (CtrlEq.applyLocks h1)
  rw [h1]
  dsimp only [Bind.bind, Except.bind]
  by_cases hon : (s1.st i).isOn = true
  · obtain ⟨r, hr⟩ := (h.usable i1).pickSource dr amb i
    have i2 := i1.ctrl (CtrlEq.pickSource hr)
    simp only [hon, if_true, hr]
    cases hj : r.2 with
    | none => exact ⟨0, _, fun _ _ => rfl, i2, hmin, hle⟩
    | some j =>
      obtain ⟨b, s2, h2⟩ := h.heat hexp i2 j hmin
      dsimp only at h2
      obtain ⟨i3, t0, t1⟩ := h.inv_heat hexp i2 hmin hle (h2 b le_rfl)
      dsimp only
      by_cases hlt : (s2.st j).runtime_min < minutes
      · obtain ⟨s3, h3, c3⟩ := h.afterEarly (m := m) i3 dr i (minutes - (s2.st j).runtime_min)
        refine ⟨b, (s3, minutes - (s2.st j).runtime_min), fun fuel hf => ?_, i3.ctrl c3, by linarith, by dsimp only; linarith⟩
        unfold Sim.runSource
        rw [h2 fuel hf]
        dsimp only [Bind.bind, Except.bind]
        rw [if_pos hlt, h3 fuel]
        rfl
      · refine ⟨b, (s2, minutes), fun fuel hf => ?_, i3, hmin, hle⟩
        unfold Sim.runSource
        rw [h2 fuel hf]
        dsimp only [Bind.bind, Except.bind]
        rw [if_neg hlt]
        rfl
  · simp only [hon]
    exact ⟨0, _, fun _ _ => rfl, i1, hmin, hle⟩

theorem heatSrcLoop (h : Begun s0 lo hi airLo airHi amb) (hexp : ∀ x, 0 ≤ m.exp x) (dr : DR) : ∀ (is : List (Fin k))
    (s : Sim n k) (minutes : ℚ), StepInv s0 s lo hi → 0 < minutes → minutes ≤ s0.cfg.minutesPerStep →
    Returns fun fuel => Sim.heatSrcLoop m fuel dr amb is s minutes
  | [], s, _, _, _, _ => Returns.pure s
  | i :: is, s, minutes, inv, hmin, hle => by
    obtain ⟨b, r, hr, i1, m1, m2⟩ := h.heatBody hexp inv dr i hmin hle
    obtain ⟨b2, y, hy⟩ := heatSrcLoop h hexp dr is r.1 r.2 i1 m1 m2
    refine ⟨max b b2, y, fun fuel hf => ?_⟩
    change (Sim.heatBody m fuel dr amb s i minutes >>= fun r => Sim.heatSrcLoop m fuel dr amb is r.1 r.2) = _
    rw [hr fuel (le_trans (le_max_left _ _) hf)]
    exact hy fuel (le_trans (le_max_right _ _) hf)

theorem control (h : Begun s0 lo hi airLo airHi amb) (hexp : ∀ x, 0 ≤ m.exp x) (inv : StepInv s0 s0 lo hi) (dr : DR) :
    Returns fun fuel => Sim.control m fuel dr amb s0 := by
  unfold Sim.control
  refine Returns.bind ?_ fun s1 _ _ => Returns.pure _
  unfold Sim.normalControl
  refine Returns.ite (fun _ => Returns.pure _) fun _ => ?_
  have u0 := h.usable inv
  refine Returns.bindConst (u0.topOff dr) fun a ha => ?_
  have i1 := inv.ctrl (CtrlEq.topOff ha)
  refine Returns.bindConst (LogicsUsable.chooseLoop dr _ (h.usable i1)) fun b hb => ?_
  exact h.heatSrcLoop hexp dr _ b _ (i1.ctrl (CtrlEq.chooseLoop hb)) h.ready.step le_rfl

end Begun

/-! ## Steps and runs -/

/-- **C100.** A step of a proper water heater does not fail: it returns, whatever state its heat sources are in, with
every demand-response signal and for every water and air temperature between the limits. Together with C31, C83 and the
other statements about steps that return, it says what steps do, not just what they do if they succeed. -/
theorem C100_step (m : Libm) (hexp : ∀ x, 0 ≤ m.exp x) (s : Sim n k) (u : Sim.StepInput) (lo : ℚ) (hi : WithTop ℚ)
    (airLo airHi : ℚ) (h : s.WorksBetween lo hi airLo airHi) (hu : s.SuppliedBetween s.inletT u lo hi airLo airHi)
    (hr : s.Ready lo hi airLo airHi) (hsoc : s.toPlant.SoCUsable) (hsecond : u.inletVol2_L ≤ u.draw_L) :
    Returns fun fuel => Sim.runOneStep m fuel s u := by
  have hmin : ¬ (s.cfg.doTempDepression = true ∧ s.cfg.minutesPerStep ≠ 1) := fun ⟨a, b⟩ => b (hr.minute a)
  have hw0 : Tank.WellFormed { s.tank with outletT := 0, standbyLosses_kJ := 0 } := h.wellFormed.of_cfg rfl
  have hdrawn : ∃ t, s.DrawnTank u t := by
    unfold Sim.DrawnTank
    cases e : ({ s.tank with outletT := 0, standbyLosses_kJ := 0 } : Tank n).updateNodes
      (s.cfg.minutesPerStep / 60) (60 * s.cfg.minutesPerStep) u.draw_L s.inletT (s.tankAirT u) u.inletVol2_L u.inletT2 with
    | ok t => exact ⟨t, rfl⟩
    | error x =>
      exfalso
      rcases (C09_error_iff _ hw0 _ _ _ _ _ _ _).1.mp ⟨x, e⟩ with ⟨-, hlt⟩ | ⟨-, hlt⟩
      · exact absurd hsecond (not_le.mpr hlt)
      · have hg := h.gentle
        have htau : s.tank.tau (60 * s.cfg.minutesPerStep) = 2 * kWater * (60 * s.cfg.minutesPerStep) /
          ((cpWater * 1000) * (rhoWater * 1000) * s.tank.nodeHeight_m ^ 2) := by
          unfold Tank.tau; ring
        have hlt : 1 < s.tank.tau (60 * s.cfg.minutesPerStep) := by rw [htau]; exact hlt
        have hcp := h.wellFormed.toConsistent.nodeCp_pos
        have : 0 ≤ (2 * (s.tank.UA * s.tank.fracAreaTop) + (s.tank.UA * s.tank.fracAreaSide + s.tank.fittingsUA) / (n + 1)) *
            (s.cfg.minutesPerStep / 60) / s.tank.nodeCp := by
          have := h.ends; have := h.side; have := h.step
          positivity
        linarith
  obtain ⟨t, ht⟩ := hdrawn
  have hloc : (s.resetOutputs.initLocation u.tankAmbient).locationT =
      if s.cfg.doTempDepression then s.roomT u else s.locationT := by
    unfold Sim.initLocation Sim.resetOutputs Sim.roomT
    by_cases h3 : s.cfg.doTempDepression = true
    · by_cases h4 : s.locationT = Sim.uninitialisedLocation <;> simp [h3, h4]
    · simp [h3]
  have hinit : s.resetOutputs.initLocation u.tankAmbient =
      { s.resetOutputs with locationT := (s.resetOutputs.initLocation u.tankAmbient).locationT } := by
    unfold Sim.initLocation
    split_ifs <;> rfl
  have hair1 : (if s.cfg.doTempDepression then
      (s.resetOutputs.initLocation u.tankAmbient).locationT else u.tankAmbient) = s.tankAirT u := by
    rw [hloc]; unfold Sim.tankAirT; split_ifs <;> rfl
  have hair2 : (if s.cfg.doTempDepression then
      (s.resetOutputs.initLocation u.tankAmbient).locationT else u.sourceAmbient) = s.sourceAirT u := by
    rw [hloc]; unfold Sim.sourceAirT; split_ifs <;> rfl
  unfold Sim.runOneStep
  simp only [if_neg hmin, hair1, hair2]
  rw [hinit]
  refine Returns.bindConst ⟨t, ht⟩ fun t1 h1 => ?_
  obtain rfl : t1 = t := Except.ok.inj (h1.symm.trans ht)
  refine Returns.bindConst (updateSoC_ok _ hsoc) fun p hp => ?_
  have e := updateSoC_eq hp
  obtain ⟨f1, f2⟩ := updateNodes_facts _ _ hw0 _ _ _ _ _ _ _ hu.draw ht
  have hpt : p.tank = t1 := by rw [e]
  have hcfg : p.tank.toTankCfg = s.tank.toTankCfg := by rw [hpt]; exact f1
  set s0 : Sim n k := { s.resetOutputs with
    locationT := (s.resetOutputs.initLocation u.tankAmbient).locationT, toPlant := p } with hs0
  have hsp : s0.setpoint = s.setpoint := by change p.setpoint = _; rw [e]; rfl
  have hws : s0.tank.WellFormed := h.wellFormed.of_cfg hcfg
  have hb : Begun s0 lo hi airLo airHi (s.sourceAirT u) :=
    { ready := hr.congr rfl hsp (by change p.socControl = _; rw [e]; rfl)
        (fun hx => by change p.haveInletT = _; rw [e]; exact hx)
      sound := fun j => by rw [hsp]; exact h.sound j _ (h.air hu).2
      air := (h.air hu).2
      nodes := h.nodes
      consistent := hws.toConsistent
      mixing := by change p.tank.toTankCfg.doInversionMixing = true; rw [hcfg]; exact h.mixing
      setpoint := by rw [hsp]; exact h.setpoint
      absolute := by rw [hsp]; exact h.absolute
      charge := by change p.SoCUsable; rw [e]; exact hsoc }
  have hrange := (h.drawn hu ht).1
  have inv : StepInv s0 s0 lo hi := StepInv.init s0 lo hi
    (by change Monotone p.tank.nodeTs; rw [hpt]; exact f2 h.mixing)
    (fun j => by change lo ≤ p.tank.nodeTs j; rw [hpt]; exact (hrange j).1)
    (fun j => by change (p.tank.nodeTs j : WithTop ℚ) ≤ hi; rw [hpt]; exact (hrange j).2)
    (fun i => rfl) h.step
  refine (hb.control hexp inv u.dr).bind fun s1 _ _ => ?_
  refine Returns.bindConst ⟨s1, ?_⟩ fun s2 _ => Returns.pure _
  rw [hu.extra]; rfl

/-- A draw among those of a run. -/
theorem drawn_ne_zero (us : List Sim.RunInput) (h0 : ∀ u ∈ us, 0 ≤ u.draw_L) (h : ∃ u ∈ us, 0 < u.draw_L) :
    drawn us ≠ 0 := by
  obtain ⟨u, hu, hpos⟩ := h
  have : u.draw_L ≤ drawn us := by
    unfold drawn
    apply List.single_le_sum
    · intro x hx
      obtain ⟨v, hv, rfl⟩ := List.mem_map.mp hx
      exact h0 v hv
    · exact List.mem_map.mpr ⟨u, hu, rfl⟩
  linarith

/-- **C100.** Nor does a run of any number of steps during which some water is drawn. -/
theorem C100_run (m : Libm) (hexp : ∀ x, 0 ≤ m.exp x) (s : Sim n k) (us : List Sim.RunInput) (lo : ℚ) (hi : WithTop ℚ)
    (airLo airHi : ℚ) (h : s.WorksBetween lo hi airLo airHi)
    (hu : ∀ u ∈ us, s.SuppliedBetween u.inletT u.step lo hi airLo airHi)
    (hr : ∀ u ∈ us, (s.setInletT u.inletT).Ready lo hi airLo airHi ∧ (s.setInletT u.inletT).toPlant.SoCUsable)
    (hd : ∃ u ∈ us, 0 < u.draw_L) : Returns fun fuel => Sim.runNSteps m fuel s us := by
  have key : ∀ (us : List Sim.RunInput) (s : Sim n k) (a : Sim.RunSums k), s.WorksBetween lo hi airLo airHi →
      (∀ u ∈ us, s.SuppliedBetween u.inletT u.step lo hi airLo airHi) →
      (∀ u ∈ us, (s.setInletT u.inletT).Ready lo hi airLo airHi ∧ (s.setInletT u.inletT).toPlant.SoCUsable) →
      Returns fun fuel => Sim.runLoop m fuel us s a := by
    intro us
    induction us with
    | nil => intro s a _ _ _; exact Returns.pure _
    | cons u us ih =>
      intro s a hb hu hr
      have hs : (s.setInletT u.inletT).WorksBetween lo hi airLo airHi := ⟨hb.nodes, hb.volume, hb.nodeVolume,
        hb.nodeCp, hb.inlet, hb.inlet2, hb.mixBelow, hb.mixing, hb.effectiveness, hb.step, hb.absolute, hb.ends,
        hb.side, hb.gentle, hb.setpoint, hb.water, hb.room, hb.sound⟩
      have hi' : (s.setInletT u.inletT).SuppliedBetween u.inletT u.step lo hi airLo airHi :=
        (hu u (by simp)).of_cfg rfl rfl
      obtain ⟨r1, r2⟩ := hr u (by simp)
      have h1 := C100_step m hexp _ u.step lo hi airLo airHi hs hi' r1 r2 (hu u (by simp)).draw
      unfold Sim.runLoop
      refine Returns.bind (x := fun fuel => Sim.runOneStepAt m fuel s u) h1 fun s1 b hb1 => ?_
      have hstep := hb1 b le_rfl
      unfold Sim.runOneStepAt at hstep
      obtain ⟨-, -, w, -⟩ := C83_step m hexp b _ s1 u.step lo hi airLo airHi hs hi' hstep
      obtain ⟨-, -, -, -, f1, f2, f3, f4, f5, f6, -⟩ :=
        step_facts m hexp b _ _ u.step lo hi (hs.accountable hi') hstep
      refine ih s1 _ w (fun v hv => (hu v (by simp [hv])).of_cfg f1 f2) fun v hv => ?_
      obtain ⟨v1, v2⟩ := hr v (by simp [hv])
      refine ⟨v1.congr f2 f3 f6 fun _ => rfl, fun q hq => ?_⟩
      have f6 : s1.socControl = s.socControl := f6
      have f3 : s1.setpoint = s.setpoint := f3
      obtain ⟨a1, a2⟩ := v2 q (by rw [← hq]; exact f6.symm)
      refine ⟨a1, ?_⟩
      change q.tempMinUseful ≤ s1.setpoint
      rw [f3]; exact a2
  unfold Sim.runNSteps
  refine (key us s _ h hu hr).bind fun r b hb => ?_
  have hdr := runLoop_draw m b us s _ r (hb b le_rfl)
  rw [if_neg]
  · exact Returns.pure _
  · rw [hdr]
    simpa using drawn_ne_zero us (fun u hu' => (hu u hu').draw) hd

/-! ## Samples -/

/-- The sample water heater, a heat pump in the tank with an element as its backup, is ready. -/
theorem sampleSim_ready (x : ℚ) : (sampleSim.setInletT x).Ready 5 ((55 : ℚ) : WithTop ℚ) 0 40 where
  step := by change 0 < sampleSim.cfg.minutesPerStep; decide +kernel
  minute h := by cases h
  logics i l h := by
    fin_cases i <;>
      simp [sampleSim, Sim.setInletT, sampleControlled, sampleSource, sampleElement] at h
    · rcases h with rfl | rfl | rfl <;> exact trivial
    · subst h; exact trivial
  defrost i c h hd := by
    fin_cases i <;> simp [sampleSim, Sim.setInletT, sampleControlled, sampleSource, sampleElement] at h
    subst h; cases hd
  coldAir i c air h hl ha := by
    fin_cases i <;> simp [sampleSim, Sim.setInletT, sampleControlled, sampleSource, sampleElement] at h
    subst h
    have := hl.1
    exact absurd (this.trans ha) (by decide +kernel)
  charge i c q h hq := by cases hq
  backup i c h _ := by
    fin_cases i <;> simp [sampleSim, Sim.setInletT, sampleControlled, sampleSource, sampleElement] at h
    subst h; change sampleSim.setpoint ≤ sampleCond.maxSetpoint; decide +kernel
  looksAbove i c h hc := by
    fin_cases i <;> simp [sampleSim, Sim.setInletT, sampleControlled, sampleSource, sampleElement] at h
    subst h; cases hc
  bounded i c h hc := by
    fin_cases i <;> simp [sampleSim, Sim.setInletT, sampleControlled, sampleSource, sampleElement] at h
    subst h; cases hc
  finishes i c x h hc := by
    fin_cases i <;> simp [sampleSim, Sim.setInletT, sampleControlled, sampleSource, sampleElement] at h
    subst h; cases hc

/-- The conditions of `C100_run` are met by the sample run. -/
example : sampleSim.WorksBetween 5 ((55 : ℚ) : WithTop ℚ) 0 40 ∧
    (∀ u ∈ sampleRun, sampleSim.SuppliedBetween u.inletT u.step 5 ((55 : ℚ) : WithTop ℚ) 0 40) ∧
    (∀ u ∈ sampleRun, (sampleSim.setInletT u.inletT).Ready 5 ((55 : ℚ) : WithTop ℚ) 0 40 ∧
      (sampleSim.setInletT u.inletT).toPlant.SoCUsable) ∧
    ∃ u ∈ sampleRun, 0 < u.draw_L := by
  refine ⟨sampleSim_between, fun u hu => ?_, fun u _ => ⟨sampleSim_ready _, fun q hq => by cases hq⟩, by decide +kernel⟩
  simp only [sampleRun, List.mem_cons, List.not_mem_nil, or_false] at hu
  rcases hu with rfl | rfl
  all_goals
    exact ⟨by norm_num [Sim.RunInput.step], le_refl 0, lies_coe.mpr (by norm_num), .inl rfl, fun h => (by cases h), rfl,
      lies_coe.mpr (by norm_num [Sim.RunInput.step]), fun _ => lies_coe.mpr (by norm_num [Sim.RunInput.step]),
      fun h => (by cases h)⟩

/-- A heat pump that heats the water outside the tank in a single pass, to 54 °C in air below 10 °C and to the setpoint of
55 °C otherwise. -/
def singlePassSim : Sim 3 2 :=
  { sampleSim with cfg := { sampleSim.cfg with
      src := ![{ sampleExt with
                   kind := .condenser { sampleExtCond with maxOutAirT := 10, maxOutT := 54 }
                   turnOn := [⟨.temp true .bottom, 40, .less, false, false, ""⟩] },
               sampleSim.cfg.src 1] } }

/-- The conditions of `C100_step` are met by it, and it runs. -/
example : singlePassSim.WorksBetween 5 ((55 : ℚ) : WithTop ℚ) 0 40 ∧ singlePassSim.Ready 5 ((55 : ℚ) : WithTop ℚ) 0 40 ∧
    ∃ s', Sim.runOneStep sampleLibm 5 singlePassSim
      { sampleInput with sourceAmbient := 5, inletVol2_L := 0, extraHeat_W := [] } = .ok s' ∧
      0 < (s'.st 0).energyOutput_kWh := by
  refine ⟨{ sampleSim_between with sound := fun i air _ => ?_ }, ?_, by decide +kernel⟩
  · match i with
    | 0 =>
      refine ⟨fun p hp => ?_, fun c hc hx => ?_, fun c hc hx => ?_, fun c hc _ _ w perf _ _ h => ?_⟩
      · simp [singlePassSim, sampleExt] at hp
      · simp [singlePassSim, sampleExt] at hc; subst hc; exact absurd rfl hx
      · simp [singlePassSim, sampleExt] at hc
        subst hc
        refine ⟨by decide +kernel, fun h => (by cases h), fun _ l hl => ?_⟩
        have : l = sampleShutOff := by simpa [singlePassSim, sampleExt] using hl
        subst this
        exact ⟨rfl, _, _, rfl⟩
      · simp [singlePassSim, sampleExt] at hc
        subst hc
        have : perf = ⟨5000, 15000, 3⟩ := by
          rw [← Except.ok.inj h]
          norm_num [singlePassSim, sampleExt, sampleExtCond, sampleCond, sampleElement]
        rw [this]; norm_num
    | 1 => exact sampleSim_sound _ air 5 _ 1
  · refine
      { step := by decide +kernel, minute := fun h => (by cases h), logics := ?_, defrost := ?_, coldAir := ?_,
        charge := fun i c q h hq => (by cases hq), backup := ?_, looksAbove := ?_, bounded := ?_, finishes := ?_ }
    · intro i l h
      fin_cases i <;> simp [singlePassSim, sampleSim, sampleExt, sampleElement] at h
      · rcases h with rfl | rfl <;> exact trivial
      · subst h; exact trivial
    all_goals
      intro i c
      fin_cases i <;> simp only [singlePassSim, sampleSim, sampleExt, sampleElement, sampleControlled, sampleSource,
        Fin.zero_eta, Fin.mk_one, Matrix.cons_val_zero, Matrix.cons_val_one, Matrix.cons_val_fin_one]
    · intro h; cases h; intro hd; cases hd
    · intro h; cases h
    · intro air h; cases h; intro _ _ _; decide +kernel
    · intro air h; cases h
    · intro h; cases h; intro hb; exact absurd rfl hb
    · intro h; cases h
    · intro h; cases h; intro _ _ l hl
      have : l = sampleShutOff := by simpa using hl
      subst this; rfl
    · intro h; cases h
    · intro h; cases h; intro _ _
      refine ⟨15000, fun x air w perf _ _ _ hp => ?_⟩
      have : perf = ⟨5000, 15000, 3⟩ := by
        rw [← Except.ok.inj hp]
        norm_num [sampleExtCond, sampleCond]
      rw [this]
    · intro h; cases h
    · intro x h; cases h; intro _ _ hx
      refine .inl ⟨sampleShutOff, by simp, ?_⟩
      rcases hx with rfl | ⟨rfl, -⟩ <;> decide +kernel
    · intro x h; cases h

end HPWH
