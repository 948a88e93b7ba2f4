import Verif.Props.Alike
import Verif.Props.ExportSources
import Verif.Props.Setpoint
import Verif.Props.Accept
import Verif.Props.Init
import Mathlib.Tactic.FinCases

/-! # C87: a resistance heater read back from its description -/

namespace HPWH

open Spec

variable {n k k₀ : ℕ}

/-! ## What follows from the distribution of the heat -/

theorem WDist.rescale_lowestHeightLoop {h w : ℚ} (hh : h ≠ 0) (hw : 0 < w) (maxH prev : ℚ) (d : WDist) :
    WDist.lowestHeightLoop (maxH / h) (prev / h) (d.rescale h w) = WDist.lowestHeightLoop maxH prev d := by
  induction d generalizing prev with
  | nil => rfl
  | cons p ps ih =>
    rw [WDist.rescale_cons]
    unfold WDist.lowestHeightLoop
    have e : (p.weight / w > 0) ↔ p.weight > 0 := by
      constructor
      · intro h1
        have := mul_pos h1 hw
        rwa [div_mul_cancel₀ _ hw.ne'] at this
      · intro h1; exact div_pos h1 hw
    dsimp only
    rw [ih]
    by_cases h1 : p.weight > 0
    · rw [if_pos h1, if_pos (e.mpr h1)]
      by_cases h2 : maxH = 0
      · rw [if_pos h2, if_pos (by rw [h2, zero_div])]
      · rw [if_neg h2, if_neg (div_ne_zero h2 hh), div_div_div_cancel_right₀ hh]
    · rw [if_neg h1, if_neg (fun h => h1 (e.mp h))]

theorem WDist.rescale_lowestNormalizedHeight {h w : ℚ} (hh : h ≠ 0) (hw : 0 < w) (d : WDist) :
    (d.rescale h w).lowestNormalizedHeight = d.lowestNormalizedHeight := by
  unfold WDist.lowestNormalizedHeight
  by_cases hd : d = []
  · subst hd; rfl
  · rw [dif_neg hd, dif_neg (WDist.rescale_ne_nil hd), WDist.rescale_maximumHeight d hd]
    have := WDist.rescale_lowestHeightLoop hh hw (d.maximumHeight hd) 0 d
    rwa [zero_div] at this

theorem indexStep_congr {src src' : Fin k → SourceCfg n k} (hk : ∀ i, (src' i).kind = (src i).kind)
    (hv : ∀ i, (src' i).isVIP = (src i).isVIP)
    (hd : ∀ i, (src' i).heatDist.lowestNormalizedHeight = (src i).heatDist.lowestNormalizedHeight) :
    indexStep src' = indexStep src := by
  funext a i
  unfold indexStep
  rw [hk, hv, hd]

theorem findIndices_congr {src src' : Fin k → SourceCfg n k} (hk : ∀ i, (src' i).kind = (src i).kind)
    (hv : ∀ i, (src' i).isVIP = (src i).isVIP)
    (hd : ∀ i, (src' i).heatDist.lowestNormalizedHeight = (src i).heatDist.lowestNormalizedHeight) :
    findIndices src' = findIndices src := by
  unfold findIndices
  rw [indexStep_congr hk hv hd]

theorem mapResistances_congr {src src' : Fin k → SourceCfg n k} (hk : ∀ i, (src' i).kind = (src i).kind)
    (hd : ∀ i, (src' i).heatDist.lowestNormalizedHeight = (src i).heatDist.lowestNormalizedHeight) :
    mapResistances src' = mapResistances src := by
  unfold mapResistances resistancePosition
  simp only [hk, hd]

namespace Machine

/-- How the heat of a source is spread after export and import. -/
theorem heatDist_rescaled {M M' : Machine n k} {b : Btwxt} {base : Machine n k₀} {d : SimInput k} {s' : Sim n k}
    (he : M.toInput = .ok (d, s')) (hi : ofInput b base d = .ok M') (i : Fin k) :
    ∃ a w, a ≠ 0 ∧ 0 < w ∧ (M'.sim.cfg.src i).heatDist = (M.sim.cfg.src i).heatDist.rescale a w := by
  obtain ⟨tank, configs, rs, _, ha, hc⟩ := round_trip he hi
  obtain ⟨q, hq, _, _, px, py, hsrc⟩ := ha.read i
  obtain ⟨s1, s2, hsb, hx, hrs⟩ := hc i
  obtain ⟨r, hr, hr'⟩ := hx.dist
  have h := hq.heatDist
  rw [hr'] at h
  rw [hsb.cfg] at hr
  obtain ⟨a, w, h1, h2, -, h3⟩ := WDist.toRs_ok hr
  refine ⟨a, w, h1, h2, ?_⟩
  rw [hsrc, ← h3]
  exact h

/-- What reading a description leaves as it was. -/
theorem ofInput_kept {b : Btwxt} {base : Machine n k₀} {d : SimInput k} {x : RsIntegrated k} {M' : Machine n k}
    (hd : d.system = .integrated x) (h : ofInput b base d = .ok M') :
    M'.sim.inletT = base.sim.inletT ∧ M'.sim.haveInletT = base.sim.haveInletT ∧
    M'.sim.socControl = base.sim.socControl ∧ M'.sim.soc = base.sim.soc ∧ M'.sim.locationT = base.sim.locationT ∧
    M'.sim.timerTOT = base.sim.timerTOT ∧ M'.sim.cfg.minutesPerStep = base.sim.cfg.minutesPerStep ∧
    M'.sim.cfg.maxDepression = base.sim.cfg.maxDepression ∧
    M'.sim.cfg.timerLimitTOT = base.sim.cfg.timerLimitTOT ∧ ∀ i, M'.sim.st i = .blank := by
  unfold ofInput at h
  split_ifs at h with hn
  simp only [hd] at h
  unfold readIntegrated at h
  obtain ⟨qs, hq, h⟩ := (bind_ok_iff _ _ _).mp h
  simp only [pure, Except.pure, Except.ok.injEq] at h
  subst h
  exact ⟨rfl, rfl, rfl, rfl, rfl, rfl, rfl, rfl, rfl, fun _ => rfl⟩

end Machine

/-! ## Derived values -/

theorem calcSizeConstants_twice {pow : ℚ → ℚ → ℚ} {t t' : Tank n} (h : t.calcSizeConstants pow = .ok t') :
    t'.calcSizeConstants pow = .ok t' := by
  unfold Tank.calcSizeConstants at h
  dsimp only at h
  split_ifs at h with h0
  cases h
  unfold Tank.calcSizeConstants
  dsimp only
  rw [if_neg h0]
  rfl

theorem calcSizeConstants_keeps {pow : ℚ → ℚ → ℚ} {t t' : Tank n} (h : t.calcSizeConstants pow = .ok t') :
    t'.UA = t.UA ∧ t'.heatExchangerEffectiveness = t.heatExchangerEffectiveness := by
  unfold Tank.calcSizeConstants at h
  dsimp only at h
  split_ifs at h with h0
  cases h
  exact ⟨rfl, rfl⟩

theorem calcSizeConstants_like {pow : ℚ → ℚ → ℚ} {a b b' : Tank n} (hv : b.volume_L = a.volume_L)
    (ha : a.calcSizeConstants pow = .ok a) (hb : b.calcSizeConstants pow = .ok b') :
    b' = { b with
      nodeVolume_L := a.nodeVolume_L
      nodeCp := a.nodeCp
      nodeHeight_m := a.nodeHeight_m
      fracAreaTop := a.fracAreaTop
      fracAreaSide := a.fracAreaSide
      nodeHeatExchangerEffectiveness := b'.nodeHeatExchangerEffectiveness } ∧
    (b.heatExchangerEffectiveness = a.heatExchangerEffectiveness →
      b'.nodeHeatExchangerEffectiveness = a.nodeHeatExchangerEffectiveness) := by
  unfold Tank.calcSizeConstants at ha hb
  dsimp only at ha hb
  rw [hv] at hb
  split_ifs at ha hb with h0
  have ha := Except.ok.inj ha
  have hb := Except.ok.inj hb
  have e1 := congrArg (fun t : Tank n => t.nodeVolume_L) ha
  have e2 := congrArg (fun t : Tank n => t.nodeCp) ha
  have e3 := congrArg (fun t : Tank n => t.nodeHeight_m) ha
  have e4 := congrArg (fun t : Tank n => t.fracAreaTop) ha
  have e5 := congrArg (fun t : Tank n => t.fracAreaSide) ha
  have e6 := congrArg (fun t : Tank n => t.nodeHeatExchangerEffectiveness) ha
  dsimp only at e1 e2 e3 e4 e5 e6
  have hN : b.numNodes = a.numNodes := rfl
  rw [← hb]
  refine ⟨?_, fun h => ?_⟩
  · dsimp only
    rw [← e1, ← e2, ← e3, ← e4, ← e5, hN, hv]
  · dsimp only
    rw [h, hN, e6]

theorem TankCfg.same_rest {a b : TankCfg} (h1 : b.volume_L = a.volume_L) (h2 : b.mixesOnDraw = a.mixesOnDraw)
    (h3 : b.doInversionMixing = a.doInversionMixing) (h4 : b.doConduction = a.doConduction)
    (h5 : b.nodeVolume_L = a.nodeVolume_L) (h6 : b.nodeCp = a.nodeCp) (h7 : b.nodeHeight_m = a.nodeHeight_m)
    (h8 : b.fracAreaTop = a.fracAreaTop) (h9 : b.fracAreaSide = a.fracAreaSide) (h10 : b.UA = a.UA)
    (h11 : b.fittingsUA = a.fittingsUA) (h12 : b.inletHeight = a.inletHeight) (h13 : b.inlet2Height = a.inlet2Height)
    (h14 : b.hasHeatExchanger = a.hasHeatExchanger) :
    b = { a with
      mixBelowFractionOnDraw := b.mixBelowFractionOnDraw
      heatExchangerEffectiveness := b.heatExchangerEffectiveness
      nodeHeatExchangerEffectiveness := b.nodeHeatExchangerEffectiveness
      volumeFixed := b.volumeFixed } := by
  cases a; cases b; simp_all

/-- **C87.** Deriving the values twice is deriving them once. -/
theorem C87_derived_once (m : Libm) (pow : ℚ → ℚ → ℚ) (s s' : Sim n k) (h : s.calcDerivedValues m pow = .ok s') :
    s'.calcDerivedValues m pow = .ok s' := by
  obtain ⟨ix, t, mp, h1, h2, h3, rfl⟩ := calcDerived_ok h
  unfold Sim.calcDerivedValues
  dsimp only
  have e1 : findIndices (fun i => ({ s.cfg.src i with
      shrinkageT := Sim.findShrinkage m.log (s.cfg.src i).heatDist (n + 1)
      lowestNode := ⟨(s.cfg.src i).heatDist.findLowestNode (n + 1),
        WDist.lowestLoop_lt _ _ _ _ (by omega) (by omega)⟩
      depressesTemperature := (s.cfg.src i).kind.isCompressor } : SourceCfg n k)) = .ok ix := by
    rw [← h1]
    exact findIndices_congr (fun _ => rfl) (fun _ => rfl) fun _ => rfl
  have e3 : mapResistances (fun i => ({ s.cfg.src i with
      shrinkageT := Sim.findShrinkage m.log (s.cfg.src i).heatDist (n + 1)
      lowestNode := ⟨(s.cfg.src i).heatDist.findLowestNode (n + 1),
        WDist.lowestLoop_lt _ _ _ _ (by omega) (by omega)⟩
      depressesTemperature := (s.cfg.src i).kind.isCompressor } : SourceCfg n k)) = .ok mp := by
    rw [← h3]; rfl
  rw [e1, e3, calcSizeConstants_twice h2]
  rfl

namespace Machine

theorem adjust_kept {s s' : Sim n k} {g : PresetGroup} (hg : g = .other ∨ g = .scalable) (h : adjust s g = .ok s') :
    ∃ c, s' = { s with cfg := { s.cfg with canScale := c } } := by
  rcases hg with rfl | rfl
  · cases h; exact ⟨_, rfl⟩
  · cases h; exact ⟨true, rfl⟩

/-- **C87.** A heater with resistance elements only, written to a description and read into a simulator that agrees
with it on what descriptions leave out, has the same settings and the same tank again. -/
theorem C87_reread_settings (m : Libm) (pow : ℚ → ℚ → ℚ) (b : Btwxt) (g : PresetGroup)
    (hg : g = .other ∨ g = .scalable) (M M' : Machine n k) (base : Machine n k₀) (d : SimInput k) (s' : Sim n k)
    (helem : ∀ i, ∃ p, (M.sim.cfg.src i).kind = .resistance p)
    (hder : M.sim.calcDerivedValues m pow = .ok M.sim)
    (hnames : Function.Injective M.name)
    (hone : ∀ i j, (M.sim.cfg.src i).isVIP = true → (M.sim.cfg.src j).isVIP = true → i = j)
    (hnone : (∀ i, (M.sim.cfg.src i).isVIP = false) → ∀ i, M.name i ≠ "")
    (htemp : ∀ i, ∀ l ∈ (M.sim.cfg.src i).turnOn ++ (M.sim.cfg.src i).shutOff ++ (M.sim.cfg.src i).standby.toList,
      OnTemperature l)
    (hmix : M.sim.tank.mixesOnDraw = true → M.sim.tank.mixBelowFractionOnDraw > 0)
    (hbase : SameUnwritten M.sim base.sim)
    (he : M.toInput = .ok (d, s')) (hi : init m pow b g base d = .ok M') :
    SameSettings M.sim.cfg M'.sim.cfg ∧ SameShell M.sim.tank.toTankCfg M'.sim.tank.toTankCfg := by
  unfold init at hi
  obtain ⟨N, hN, hi⟩ := (bind_ok_iff _ _ _).mp hi
  obtain ⟨s1, hs1, hi⟩ := (bind_ok_iff _ _ _).mp hi
  obtain ⟨s2, hs2, hi⟩ := (bind_ok_iff _ _ _).mp hi
  cases hi
  obtain ⟨cs, rfl⟩ := adjust_kept hg hs1
  obtain ⟨s3, hs3, -, rfl⟩ := configure_ok hs2
  obtain ⟨ix, t, mp, h1, h2, h3, rfl⟩ := calcDerived_ok hs3
  obtain ⟨ix0, t0, mp0, h10, h20, h30, h40⟩ := calcDerived_ok hder
  dsimp only at h1 h2 h3 ⊢
  have hsrcs := C68_sources M N b base d s' hnames he hN
  have hkind : ∀ i, (N.sim.cfg.src i).kind = (M.sim.cfg.src i).kind := fun i => by
    obtain ⟨p, hp⟩ := helem i
    have := (hsrcs i).2.2.2.2.1
    unfold SameKind at this
    rw [hp] at this ⊢
    cases hq : (N.sim.cfg.src i).kind with
    | resistance q => rw [hq] at this; rw [this]
    | condenser c => rw [hq] at this; exact this.elim
  have hvip := C68_priority M N b base d s' hnames hone hnone he hN
  have hlog := C68_logics M N b base d s' he hN
  obtain ⟨hset1, hset2, hset3, hset4⟩ := C68_settings M N b base d s' hmix he hN
  have hix : ix = ix0 := by
    have : findIndices N.sim.cfg.src = findIndices M.sim.cfg.src := by
      refine findIndices_congr hkind hvip fun i => ?_
      obtain ⟨a, w, h1, h2, h3⟩ := heatDist_rescaled he hN i
      rw [h3, WDist.rescale_lowestNormalizedHeight h1 h2]
    rw [this, h10] at h1
    exact (Except.ok.inj h1).symm
  have hnc : ∀ i c, (M.sim.cfg.src i).kind ≠ .condenser c := fun i c h => by
    obtain ⟨p, hp⟩ := helem i
    rw [hp] at h; cases h
  have hcomp : compressorExternal M.sim = false := by
    unfold compressorExternal
    cases M.sim.cfg.compressorIndex with
    | none => rfl
    | some j =>
      obtain ⟨p, hp⟩ := helem j
      simp only [hp]
  obtain ⟨x, hx, -⟩ : ∃ x, d.system = .integrated x ∧ True := by
    rcases (toInput_ok he).system with ⟨x, hx, _⟩ | ⟨x, j, c, _, h, _⟩
    · exact ⟨x, hx, trivial⟩
    · rw [hcomp] at h; cases h
  obtain ⟨k1, k2, k3, k4, k5, k6, k7, k8, k9, k10⟩ := ofInput_kept hx hN
  have hMs : ∀ i, (M.sim.cfg.src i).depressesTemperature = (M.sim.cfg.src i).kind.isCompressor := fun i =>
    congrArg (fun s : Sim n k => (s.cfg.src i).depressesTemperature) h40
  have hMi : M.sim.cfg.compressorIndex = ix0.compressor ∧ M.sim.cfg.lowestElementIndex = ix0.lowest ∧
      M.sim.cfg.vipIndex = ix0.vip :=
    ⟨congrArg (fun s : Sim n k => s.cfg.compressorIndex) h40, congrArg (fun s : Sim n k => s.cfg.lowestElementIndex) h40,
      congrArg (fun s : Sim n k => s.cfg.vipIndex) h40⟩
  have hMt : M.sim.tank = t0 := congrArg (fun s : Sim n k => s.tank) h40
  refine ⟨⟨fun i => ?_, ?_, ?_, ?_, ?_, ?_, ?_, ?_, ?_⟩, ?_⟩
  · obtain ⟨q1, q2, q3, q4, q5, q6⟩ := hsrcs i
    obtain ⟨a, w, r1, r2, r3⟩ := heatDist_rescaled he hN i
    refine ⟨hkind i, hvip i, q2, q4, q3, q6, fun T => ?_, (hlog i).1 fun l hl => htemp i l (by simp [hl]),
      (hlog i).2.1 fun l hl => htemp i l (by simp [hl]), (hlog i).2.2 fun l hl => htemp i l
        (List.mem_append_right _ (Option.mem_toList.mpr hl)), ?_,
      fun ⟨c, hc⟩ => (hnc i c hc).elim⟩
    · rw [← WDist.rescale_averageT r1 r2 (M.sim.cfg.src i).heatDist T, ← r3]; rfl
    · rw [hMs]; exact congrArg SourceKind.isCompressor (hkind i)
  · exact k7.trans hbase.minutes
  · exact hset4
  · exact k8.trans hbase.maxDepression
  · exact k9.trans hbase.timerLimit
  · exact (congrArg Indices.compressor hix).trans hMi.1.symm
  · exact (congrArg Indices.lowest hix).trans hMi.2.1.symm
  · exact (congrArg Indices.vip hix).trans hMi.2.2.symm
  · rintro ⟨i, c, hc⟩
    exact (hnc i c hc).elim
  · obtain ⟨v1, v2, v3, v4, v5, v6, v7⟩ := hset1
    have hMd : M.sim.tank.calcSizeConstants pow = .ok M.sim.tank := by rw [h20, ← hMt]
    obtain ⟨w1, w2⟩ := calcSizeConstants_like v1 hMd h2
    obtain ⟨tank, configs, rs, ht, ha, hc⟩ := round_trip he hN
    have u1 : N.sim.tank.inletHeight = M.sim.tank.inletHeight := by rw [ha.tankEq]; exact hbase.inlet
    have u2 : N.sim.tank.inlet2Height = M.sim.tank.inlet2Height := by rw [ha.tankEq]; exact hbase.inlet2
    have u3 : N.sim.tank.doInversionMixing = M.sim.tank.doInversionMixing := by rw [ha.tankEq]; exact hbase.inversion
    have u4 : N.sim.tank.doConduction = M.sim.tank.doConduction := by rw [ha.tankEq]; exact hbase.conduction
    have hre : (Sim.resetTankToSetpoint { N.sim with tank := t } : Sim n k).tank.toTankCfg = t.toTankCfg := rfl
    change SameShell M.sim.tank.toTankCfg t.toTankCfg
    have g1 : t.mixBelowFractionOnDraw = N.sim.tank.mixBelowFractionOnDraw := by rw [w1]
    refine ⟨?_, fun h => ?_, fun h => w2 (v7 h)⟩
    · apply TankCfg.same_rest
      all_goals first | (rw [w1]; done) | (rw [w1]; assumption)
    · rw [g1]; exact v5 h

end Machine

/-! ## That export and import succeed -/

theorem logics_back {ls : List Logic} (h : ∀ l ∈ ls, OnTemperature l ∧ l.isValid = true) :
    ∃ rs ls', ls.mapM Logic.toRs = .ok rs ∧ Logic.listOfRs rs = .ok ls' ∧ (∀ l ∈ ls', l.isValid = true) ∧
      ls'.isEmpty = ls.isEmpty := by
  induction ls with
  | nil => exact ⟨[], [], rfl, rfl, by simp, rfl⟩
  | cons l ls ih =>
    obtain ⟨rs, ls', h1, h2, h3, -⟩ := ih fun l hl => h l (by simp [hl])
    obtain ⟨⟨b, dist, hk⟩, hv⟩ := h l (by simp)
    obtain ⟨r, l', g1, g2, -, g3⟩ := Logic.C44_valid l b dist hk hv
    unfold Logic.listOfRs at h2
    obtain ⟨q, hq, h2⟩ := (bind_ok_iff _ _ _).mp h2
    refine ⟨r :: rs, l' :: ls', by rw [List.mapM_cons, g1, h1]; rfl, ?_, ?_, rfl⟩
    · unfold Logic.listOfRs
      rw [List.mapM_cons, g2, hq]
      simp only [pure, Except.pure, Except.ok.injEq] at h2
      subst h2
      rfl
    · intro x hx
      rcases List.mem_cons.mp hx with rfl | hx
      · exact g3
      · exact h3 x hx

theorem standby_back {l : Option Logic} (h : ∀ x ∈ l, OnTemperature x ∧ x.isValid = true) :
    ∃ r x, l.mapM Logic.toRs = .ok r ∧ r.mapM Logic.ofRs = .ok x := by
  cases l with
  | none => exact ⟨none, none, rfl, rfl⟩
  | some l =>
    obtain ⟨⟨b, dist, hk⟩, hv⟩ := h l rfl
    obtain ⟨r, l', g1, g2, -, g3⟩ := Logic.C44_valid l b dist hk hv
    exact ⟨some r, some (some l'), by rw [Option.mapM_some, g1]; rfl, by rw [Option.mapM_some, g2]; rfl⟩

namespace Machine

theorem configLoop_pure {M : Machine n k} {s : Sim n k} {c : Fin k → RsConfig}
    (h : ∀ i, M.configToRs s i = .ok (c i, s)) (l : List (Fin k)) (cs : Fin k → RsConfig) :
    ∃ cs', M.configLoop l cs s = .ok (cs', s) ∧ ∀ i, cs' i = if i ∈ l then c i else cs i := by
  induction l generalizing cs with
  | nil => exact ⟨cs, rfl, by simp⟩
  | cons i is ih =>
    obtain ⟨cs', h1, h2⟩ := ih (Function.update cs i (c i))
    refine ⟨cs', ?_, fun j => ?_⟩
    · unfold configLoop
      rw [h i]
      exact h1
    · rw [h2 j]
      by_cases hj : j ∈ is
      · simp [hj]
      · by_cases hji : j = i
        · subst hji; simp [hj]
        · simp [hj, hji]

theorem checkInputs_again {a s : Sim n k} {p : Fin k → ℚ} (ha : a.checkInputs = .ok ())
    (ha1 : a.cfg.compressorIndex = none)
    (h1 : s.cfg.compressorIndex = none)
    (h2 : s.cfg.lowestElementIndex = a.cfg.lowestElementIndex) (h3 : s.cfg.setpointFixed = a.cfg.setpointFixed)
    (h4 : s.cfg.isStorageTank = a.cfg.isStorageTank) (h5 : s.setpoint = a.setpoint) (h6 : s.tank.UA = a.tank.UA)
    (h7 : s.tank.heatExchangerEffectiveness ≤ 1) (h8 : ∀ i, (s.cfg.src i).kind = .resistance (p i))
    (h9 : ∀ i, (s.cfg.src i).backup = (a.cfg.src i).backup)
    (h10 : ∀ i, (s.cfg.src i).turnOn.isEmpty = (a.cfg.src i).turnOn.isEmpty ∧
      (s.cfg.src i).turnOn.all (·.isValid) = true ∧ (s.cfg.src i).shutOff.all (·.isValid) = true ∧
      (s.cfg.src i).heatDist.isValid = true)
    (h11 : ∀ i, (s.cfg.src i).airflowFreedom = 1) : s.checkInputs = .ok () := by
  unfold Sim.checkInputs at ha
  obtain ⟨o, ho, ha⟩ := (bind_ok_iff _ _ _).mp ha
  rw [ite_ok_iff] at ha
  simp only [Bool.and_eq_true, decide_eq_true_eq] at ha
  obtain ⟨⟨-, hg⟩, hs⟩ := ha
  have e1 : s.sizingOk = .ok true := by unfold Sim.sizingOk; rw [h1]
  have e2 : s.globalOk = true := by
    unfold Sim.globalOk Sim.newSetpointPossible at hg ⊢
    simp only [ha1, Bool.and_eq_true, decide_eq_true_eq] at hg
    simp only [h1, h2, h3, h4, h5, h6, Bool.and_eq_true, decide_eq_true_eq]
    exact ⟨hg.1, not_lt.mpr h7⟩
  have e4 : ∀ i, s.parent i = a.parent i := fun i => by unfold Sim.parent; simp only [h9]
  have e3 : ∀ i, s.sourceOk i = true := fun i => by
    have hi := hs i
    unfold Sim.sourceOk at hi ⊢
    simp only [Bool.and_eq_true] at hi
    obtain ⟨g1, g2, g3, g4⟩ := h10 i
    dsimp only
    have g0 : ∀ j, (s.cfg.src j).turnOn.isEmpty = (a.cfg.src j).turnOn.isEmpty := fun j => (h10 j).1
    simp only [g0, g2, g3, g4, h11, h8, e4, hi.1.1.1.1.1]
    decide
  unfold Sim.checkInputs
  rw [e1]
  change (if (true && s.globalOk && decide (∀ i, s.sourceOk i = true)) = true then _ else _) = _
  rw [if_pos (by simp only [e2, Bool.true_and, decide_eq_true_eq]; exact e3)]

/-- **C87.** An accepted heater with resistance elements only can be written to a description, which does not change
it, and the description can be read and is accepted again. -/
theorem C87_reread_accepted (m : Libm) (pow : ℚ → ℚ → ℚ) (b : Btwxt) (g : PresetGroup)
    (hg : g = .other ∨ g = .scalable) (M : Machine n k) (base : Machine n k₀)
    (helem : ∀ i, ∃ p, (M.sim.cfg.src i).kind = .resistance p)
    (hder : M.sim.calcDerivedValues m pow = .ok M.sim) (hacc : M.sim.checkInputs = .ok ())
    (hnames : Function.Injective M.name)
    (hone : ∀ i j, (M.sim.cfg.src i).isVIP = true → (M.sim.cfg.src j).isVIP = true → i = j)
    (hnone : (∀ i, (M.sim.cfg.src i).isVIP = false) → ∀ i, M.name i ≠ "")
    (htemp : ∀ i, ∀ l ∈ (M.sim.cfg.src i).turnOn ++ (M.sim.cfg.src i).shutOff ++ (M.sim.cfg.src i).standby.toList,
      OnTemperature l)
    (hstandby : ∀ i, ∀ l ∈ (M.sim.cfg.src i).standby, l.isValid = true)
    (hmix : M.sim.tank.mixesOnDraw = true → M.sim.tank.mixBelowFractionOnDraw > 0)
    (hfix : base.sim.cfg.setpointFixed = M.sim.cfg.setpointFixed)
    (hstorage : base.sim.cfg.isStorageTank = M.sim.cfg.isStorageTank)
    (hex : base.sim.tank.heatExchangerEffectiveness ≤ 1) :
    ∃ d M', M.toInput = .ok (d, M.sim) ∧ init m pow b g base d = .ok M' := by
  obtain ⟨ix0, t0, mp0, h10, h20, h30, h40⟩ := calcDerived_ok hder
  have hMi : M.sim.cfg.compressorIndex = ix0.compressor ∧ M.sim.cfg.lowestElementIndex = ix0.lowest ∧
      M.sim.cfg.vipIndex = ix0.vip :=
    ⟨congrArg (fun s : Sim n k => s.cfg.compressorIndex) h40, congrArg (fun s : Sim n k => s.cfg.lowestElementIndex) h40,
      congrArg (fun s : Sim n k => s.cfg.vipIndex) h40⟩
  have hMt : M.sim.tank = t0 := congrArg (fun s : Sim n k => s.tank) h40
  have hcomp : compressorExternal M.sim = false := by
    unfold compressorExternal
    cases M.sim.cfg.compressorIndex with
    | none => rfl
    | some j =>
      obtain ⟨p, hp⟩ := helem j
      simp only [hp]
  -- what the acceptance says
  have hacc' := hacc
  unfold Sim.checkInputs at hacc'
  obtain ⟨o, ho, hacc'⟩ := (bind_ok_iff _ _ _).mp hacc'
  rw [ite_ok_iff] at hacc'
  simp only [Bool.and_eq_true, decide_eq_true_eq] at hacc'
  obtain ⟨⟨ho1, hglob⟩, hsrcok⟩ := hacc'
  have hok : ∀ i, ((!(M.sim.cfg.src i).turnOn.isEmpty ||
      match M.sim.parent i with
      | some j => !(M.sim.cfg.src j).turnOn.isEmpty
      | none => false) = true) ∧ (M.sim.cfg.src i).turnOn.all (·.isValid) = true ∧
      (M.sim.cfg.src i).shutOff.all (·.isValid) = true ∧ (M.sim.cfg.src i).heatDist.isValid = true := fun i => by
    have := hsrcok i
    unfold Sim.sourceOk at this
    simp only [Bool.and_eq_true] at this
    exact ⟨this.1.1.1.1.1, this.1.1.1.1.2, this.1.1.1.2, this.1.1.2⟩
  -- export
  have hon : ∀ i, ∀ l ∈ (M.sim.cfg.src i).turnOn, OnTemperature l ∧ l.isValid = true := fun i l hl =>
    ⟨htemp i l (by simp [hl]), List.all_eq_true.mp (hok i).2.1 l hl⟩
  have hoff : ∀ i, ∀ l ∈ (M.sim.cfg.src i).shutOff, OnTemperature l ∧ l.isValid = true := fun i l hl =>
    ⟨htemp i l (by simp [hl]), List.all_eq_true.mp (hok i).2.2.1 l hl⟩
  have hst : ∀ i, ∀ l ∈ (M.sim.cfg.src i).standby, OnTemperature l ∧ l.isValid = true := fun i l hl =>
    ⟨htemp i l (List.mem_append_right _ (Option.mem_toList.mpr hl)), hstandby i l hl⟩
  choose rOn lOn a1 a2 a3 a4 using fun i => logics_back (hon i)
  choose rOff lOff b1 b2 b3 b4 using fun i => logics_back (hoff i)
  choose rSt lSt c1 c2 using fun i => standby_back (hst i)
  choose rd hd w d1 d2 d3 d4 using fun i => WDist.toRs_valid (hok i).2.2.2
  choose pw hpw using helem
  have hconf : ∀ i, M.configToRs M.sim i = .ok (({ id := some (M.name i), heatDist := some (rd i), turnOn := rOn i
                                                   shutOff := rOff i, standby := rSt i
                                                   backup := (M.sim.cfg.src i).backup.map M.name
                                                   followedBy := (M.sim.cfg.src i).followedBy.map M.name
                                                   companion := (M.sim.cfg.src i).companion.map M.name
                                                   source := .resistance (M.srcInfo i).toRs (1000 * pw i) } : RsConfig),
      M.sim) := fun i => by
    have e : M.sourceToRs M.sim i = .ok (.resistance (M.srcInfo i).toRs (1000 * pw i), M.sim) := by
      unfold sourceToRs
      dsimp only
      rw [hpw i]
    unfold configToRs
    dsimp only
    rw [d1, a1, b1, c1, e]
    rfl
  obtain ⟨cs, hcs, hcs'⟩ := configLoop_pure hconf (List.finRange k) fun _ => .blank
  simp only [List.mem_finRange, if_true] at hcs'
  obtain ⟨d, hexp, hsys⟩ : ∃ d : SimInput k, M.toInput = .ok (d, M.sim) ∧ d.system = .integrated
      { info := M.info.toRs, rating := M.rating.toRs, tank := M.sim.tank.toRs M.tankInfo, configs := cs,
        primary := M.primaryName } := by
    unfold toInput systemToRs integratedToRs
    rw [hcomp, hcs]
    exact ⟨_, rfl, rfl⟩
  have hnodes := (toInput_ok hexp).nodes
  -- import
  obtain ⟨N, hN, hNsrc, hNfix, hNst⟩ : ∃ N, ofInput b base d = .ok N ∧ (∀ i, (N.sim.cfg.src i).turnOn = lOn i ∧
      (N.sim.cfg.src i).shutOff = lOff i ∧ (N.sim.cfg.src i).airflowFreedom = 1 ∧
      (N.sim.cfg.src i).heatDist = WDist.ofRs (rd i)) ∧ N.sim.cfg.setpointFixed = base.sim.cfg.setpointFixed ∧
      N.sim.cfg.isStorageTank = base.sim.cfg.isStorageTank := by
    have hread : ∀ i, ∃ q : ReadSource n k × String, (do
        let r ← readIntegratedSource b base.style (d.interpolateCop.getD false) (cs i).source
        readConfig cs M.primaryName i r) = .ok q ∧ q.1.cfg.turnOn = lOn i ∧ q.1.cfg.shutOff = lOff i ∧
          q.1.cfg.airflowFreedom = 1 ∧ q.1.cfg.heatDist = WDist.ofRs (rd i) := fun i => by
      have e : ∃ q, readConfig cs M.primaryName i (readResistance (n := n) (M.srcInfo i).toRs (1000 * pw i)) = .ok q ∧
          q.1.cfg.turnOn = lOn i ∧ q.1.cfg.shutOff = lOff i ∧ q.1.cfg.airflowFreedom = 1 ∧
          q.1.cfg.heatDist = WDist.ofRs (rd i) := by
        unfold readConfig
        dsimp only
        rw [hcs' i]
        dsimp only
        rw [a2, b2, c2]
        exact ⟨_, rfl, rfl, rfl, rfl, rfl⟩
      rw [hcs' i]
      exact e
    choose q hq hq' using hread
    unfold ofInput
    rw [hnodes, hsys]
    simp only [Option.getD_some, if_true]
    unfold readIntegrated
    dsimp only
    rw [collect_of_ok hq]
    exact ⟨_, rfl, hq', rfl, rfl⟩
  have hsrcs := C68_sources M N b base d M.sim hnames hexp hN
  have hkind : ∀ i, (N.sim.cfg.src i).kind = (M.sim.cfg.src i).kind := fun i => by
    have := (hsrcs i).2.2.2.2.1
    unfold SameKind at this
    rw [hpw] at this ⊢
    cases hq : (N.sim.cfg.src i).kind with
    | resistance q => rw [hq] at this; rw [this]
    | condenser c => rw [hq] at this; exact this.elim
  have hvip := C68_priority M N b base d M.sim hnames hone hnone hexp hN
  obtain ⟨⟨v1, v2, v3, v4, v5, v6, v7⟩, hset2, hset3, hset4⟩ := C68_settings M N b base d M.sim hmix hexp hN
  have hlow : ∀ i, (N.sim.cfg.src i).heatDist.lowestNormalizedHeight =
      (M.sim.cfg.src i).heatDist.lowestNormalizedHeight := fun i => by
    rw [(hNsrc i).2.2.2, d4, WDist.rescale_lowestNormalizedHeight (d2 i).ne' (d3 i)]
  obtain ⟨c, hadj⟩ : ∃ c, adjust N.sim g = .ok { N.sim with cfg := { N.sim.cfg with canScale := c } } := by
    rcases hg with rfl | rfl
    · exact ⟨_, rfl⟩
    · exact ⟨true, rfl⟩
  have hN1 : findIndices N.sim.cfg.src = .ok ix0 := by rw [findIndices_congr hkind hvip hlow, h10]
  have hN3 : ∃ mp, mapResistances N.sim.cfg.src = .ok mp := ⟨mp0, by rw [mapResistances_congr hkind hlow, h30]⟩
  have hN2 : ∃ t, N.sim.tank.calcSizeConstants pow = .ok t := by
    unfold Tank.calcSizeConstants at h20 ⊢
    dsimp only at h20 ⊢
    rw [v1]
    split_ifs at h20 ⊢ with h0
    exact ⟨_, rfl⟩
  obtain ⟨mp, hmp⟩ := hN3
  obtain ⟨t, ht⟩ := hN2
  have hconfig : ∃ s', Sim.configure m pow { N.sim with cfg := { N.sim.cfg with canScale := c } } = .ok s' := by
    obtain ⟨s1, hs1⟩ : ∃ s1, Sim.calcDerivedValues m pow
        { N.sim with cfg := { N.sim.cfg with canScale := c } } = .ok s1 := by
      unfold Sim.calcDerivedValues
      dsimp only
      rw [hN1, ht, hmp]
      exact ⟨_, rfl⟩
    have hchk : s1.checkInputs = .ok () := by
      have hnone : ix0.compressor = none := by
        cases hj : ix0.compressor with
        | none => rfl
        | some j =>
          unfold Sim.sizingOk Sim.getSizingFractions Sim.compressor at ho
          rw [hMi.1, hj] at ho
          simp only [hpw] at ho
          cases ho
      obtain ⟨ix', t', mp', e1, e2, e3, rfl⟩ := calcDerived_ok hs1
      dsimp only at e1 e2 e3
      cases hN1.symm.trans e1
      obtain ⟨w1, w2⟩ := calcSizeConstants_keeps e2
      refine checkInputs_again hacc (hMi.1.trans hnone) hnone hMi.2.1.symm
        (hNfix.trans hfix) (hNst.trans hstorage) hset3 (w1.trans v2) ?_ (fun i => (hkind i).trans (hpw i))
        (fun i => (hsrcs i).2.1) (fun i => ?_) (fun i => (hNsrc i).2.2.1)
      · rw [w2]
        obtain ⟨tank, configs, rs, ht, ha, hc⟩ := round_trip hexp hN
        by_cases hx : M.sim.tank.hasHeatExchanger = true
        · rw [v7 hx]
          unfold Sim.globalOk at hglob
          simp only [Bool.and_eq_true, decide_eq_true_eq] at hglob
          exact not_lt.mp hglob.2
        · rw [ha.tankEq, ht]
          simp only [Tank.ofRs, Tank.toRs, hx]
          exact hex
      · dsimp only
        rw [(hNsrc i).1, (hNsrc i).2.1, (hNsrc i).2.2.2, d4, WDist.rescale_isValid (d2 i) (d3 i)]
        exact ⟨a4 i, List.all_eq_true.mpr (a3 i), List.all_eq_true.mpr (b3 i), (hok i).2.2.2⟩
    obtain ⟨s2, hs2⟩ : ∃ s2, Sim.configure m pow { N.sim with cfg := { N.sim.cfg with canScale := c } } = .ok s2 := by
      unfold Sim.configure
      rw [hs1]
      change ∃ s2, (Sim.checkInputs s1 >>= fun _ => _) = _
      rw [hchk]
      exact ⟨_, rfl⟩
    exact ⟨s2, hs2⟩
  obtain ⟨s', hs'⟩ := hconfig
  refine ⟨d, { N with sim := s' }, hexp, ?_⟩
  unfold init
  rw [hN]
  change (adjust N.sim g >>= fun s => s.configure m pow >>= fun s' => pure { N with sim := s' }) = _
  rw [hadj]
  change (Sim.configure m pow _ >>= fun s' => pure { N with sim := s' }) = _
  rw [hs']
  rfl

/-- **C87.** If the heater has not run yet, the one read from its description cannot be told apart from it: every run
of any length ends with the same error or gives the same reports and leaves the two alike. -/
theorem C87_reread_runs (m : Libm) (pow : ℚ → ℚ → ℚ) (b : Btwxt) (g : PresetGroup)
    (hg : g = .other ∨ g = .scalable) (M M' : Machine n k) (base : Machine n k₀) (d : SimInput k) (s' : Sim n k)
    (helem : ∀ i, ∃ p, (M.sim.cfg.src i).kind = .resistance p)
    (hder : M.sim.calcDerivedValues m pow = .ok M.sim)
    (hnames : Function.Injective M.name)
    (hone : ∀ i j, (M.sim.cfg.src i).isVIP = true → (M.sim.cfg.src j).isVIP = true → i = j)
    (hnone : (∀ i, (M.sim.cfg.src i).isVIP = false) → ∀ i, M.name i ≠ "")
    (htemp : ∀ i, ∀ l ∈ (M.sim.cfg.src i).turnOn ++ (M.sim.cfg.src i).shutOff ++ (M.sim.cfg.src i).standby.toList,
      OnTemperature l)
    (hmix : M.sim.tank.mixesOnDraw = true → M.sim.tank.mixBelowFractionOnDraw > 0)
    (hbase : SameUnwritten M.sim base.sim) (hstart : NotYetRun M.sim base.sim)
    (he : M.toInput = .ok (d, s')) (hi : init m pow b g base d = .ok M') :
    Alike M.sim M'.sim ∧ ∀ (fuel : ℕ) (us : List Sim.RunInput),
      SameResult (fun x y => Alike x y ∧ SameOutputs x y)
        (Sim.runNSteps m fuel M.sim us) (Sim.runNSteps m fuel M'.sim us) := by
  have hset := C87_reread_settings m pow b g hg M M' base d s' helem hder hnames hone hnone htemp hmix hbase he hi
  have hal : Alike M.sim M'.sim := by
    refine ⟨hset.1, hset.2, ?_⟩
    unfold init at hi
    obtain ⟨N, hN, hi⟩ := (bind_ok_iff _ _ _).mp hi
    obtain ⟨s1, hs1, hi⟩ := (bind_ok_iff _ _ _).mp hi
    obtain ⟨s2, hs2, hi⟩ := (bind_ok_iff _ _ _).mp hi
    cases hi
    obtain ⟨cs, rfl⟩ := adjust_kept hg hs1
    obtain ⟨s3, hs3, -, rfl⟩ := configure_ok hs2
    obtain ⟨ix, t, mp, h1, h2, h3, rfl⟩ := calcDerived_ok hs3
    obtain ⟨hset1, hset2, hset3, hset4⟩ := C68_settings M N b base d s' hmix he hN
    have hcomp : compressorExternal M.sim = false := by
      unfold compressorExternal
      cases M.sim.cfg.compressorIndex with
      | none => rfl
      | some j =>
        obtain ⟨p, hp⟩ := helem j
        simp only [hp]
    obtain ⟨x, hx, -⟩ : ∃ x, d.system = .integrated x ∧ True := by
      rcases (toInput_ok he).system with ⟨x, hx, _⟩ | ⟨x, j, c, _, h, _⟩
      · exact ⟨x, hx, trivial⟩
      · rw [hcomp] at h; cases h
    obtain ⟨k1, k2, k3, k4, k5, k6, k7, k8, k9, k10⟩ := ofInput_kept hx hN
    refine ⟨?_, hset3, k1.trans hstart.inletT, k2.trans hstart.haveInletT, k3.trans hstart.socControl,
      k4.trans hstart.soc, fun i => ?_, fun i => ?_, ?_, k5.trans hstart.location, k6.trans hstart.timer⟩
    · funext j
      exact hset3.trans (hstart.nodes j).symm
    · rw [hstart.off]
      exact congrArg SourceState.isOn (k10 i)
    · rw [hstart.unlocked]
      exact congrArg SourceState.lockedOut (k10 i)
    · rw [hstart.heating]
      have : ∀ i, (N.sim.st i).isOn = false := fun i => by rw [k10 i]; rfl
      simp [this]
  exact ⟨hal, fun fuel us => C87_run m fuel M.sim M'.sim hal us⟩

end Machine

/-! ## Resistance tanks from a few numbers -/

theorem calcSizeConstants_temps {pow : ℚ → ℚ → ℚ} {t t' : Tank n} (h : t.calcSizeConstants pow = .ok t')
    (T : Nodes n ℚ) :
    Tank.calcSizeConstants pow { t with nodeTs := T } = .ok { t' with nodeTs := T } := by
  unfold Tank.calcSizeConstants at h ⊢
  dsimp only at h ⊢
  split_ifs at h ⊢ with h0
  cases h
  rfl

theorem calcDerived_temps {m : Libm} {pow : ℚ → ℚ → ℚ} {s s' : Sim n k} (h : s.calcDerivedValues m pow = .ok s')
    (T : Nodes n ℚ) (b : Bool) :
    Sim.calcDerivedValues m pow { s with tank := { s.tank with nodeTs := T }, isHeating := b } =
      .ok { s' with tank := { s'.tank with nodeTs := T }, isHeating := b } := by
  obtain ⟨ix, t, mp, h1, h2, h3, rfl⟩ := calcDerived_ok h
  unfold Sim.calcDerivedValues
  dsimp only
  rw [h1, calcSizeConstants_temps h2 T, h3]
  rfl

/-- Once configured, there is nothing left to derive and the checks pass again. -/
theorem configure_settled {m : Libm} {pow : ℚ → ℚ → ℚ} {s s' : Sim n k} (h : s.configure m pow = .ok s') :
    s'.calcDerivedValues m pow = .ok s' ∧ s'.checkInputs = .ok () := by
  obtain ⟨s1, h1, h2, rfl⟩ := configure_ok h
  refine ⟨calcDerived_temps (C87_derived_once m pow s s1 h1) _ _, ?_⟩
  rw [← h2]
  unfold Sim.checkInputs Sim.sizingOk
  rw [sizing_reset]
  rfl

/-- The elements of the resistance tanks: at most one comes first, and all their logics look at temperatures. -/
structure PlainElements {k : ℕ} (src : Fin k → SourceCfg 11 k) : Prop where
  good : ∀ i, GoodElement (src i)
  one : ∀ i j, (src i).isVIP = true → (src j).isVIP = true → i = j
  turnOn : ∀ i, ∀ l ∈ (src i).turnOn, OnTemperature l
  standby : ∀ i, (src i).standby = none

theorem bothElements_plain {up low : ℚ} (hu : 0 < up) (hl : 0 < low) : PlainElements (bothElements up low) := by
  refine ⟨bothElements_good hu hl, ?_, ?_, ?_⟩
  · intro i j
    fin_cases i <;> fin_cases j <;> simp [bothElements, topElement, bottomElement, element, SourceCfg.blank]
  · intro i l h
    fin_cases i
    · simp only [bothElements, topElement] at h
      rcases List.mem_singleton.mp h with rfl
      exact ⟨_, _, rfl⟩
    · simp only [bothElements, bottomElement] at h
      rcases List.mem_cons.mp h with rfl | h
      · exact ⟨_, _, rfl⟩
      · rcases List.mem_singleton.mp h with rfl
        exact ⟨_, _, rfl⟩
  · intro i
    fin_cases i <;> rfl

theorem bottomElement_plain {low : ℚ} (hl : 0 < low) :
    PlainElements (![bottomElement low] : Fin 1 → SourceCfg 11 1) := by
  refine ⟨bottomElement_good hl, fun i j _ _ => Subsingleton.elim i j, ?_, ?_⟩
  · intro i l h
    rw [Fin.fin_one_eq_zero i] at h
    rcases List.mem_cons.mp h with rfl | h
    · exact ⟨_, _, rfl⟩
    · rcases List.mem_singleton.mp h with rfl
      exact ⟨_, _, rfl⟩
  · intro i
    rw [Fin.fin_one_eq_zero i]; rfl

theorem topElement_plain {up : ℚ} (hu : 0 < up) :
    PlainElements (![topElement up] : Fin 1 → SourceCfg 11 1) := by
  refine ⟨topElement_good hu, fun i j _ _ => Subsingleton.elim i j, ?_, ?_⟩
  · intro i l h
    rw [Fin.fin_one_eq_zero i] at h
    rcases List.mem_singleton.mp h with rfl
    exact ⟨_, _, rfl⟩
  · intro i
    rw [Fin.fin_one_eq_zero i]; rfl

/-- Export and import of any resistance tank built from `PlainElements`. -/
theorem elementTank_reread (m : Libm) (pow : ℚ → ℚ → ℚ) (hp : PowPos pow) (b : Btwxt) (g : Machine.PresetGroup)
    (hg : g = .other ∨ g = .scalable) {n₀ k₁ : ℕ} (base : Sim n₀ k₀) {src : Fin k → SourceCfg 11 k}
    (hsrc : PlainElements src) (c : Bool) (vol UA : ℚ) (M : Machine 11 k)
    (h : elementTank m pow base src c vol UA = .ok M.sim)
    (hnames : Function.Injective M.name) (hne : ∀ i, M.name i ≠ "")
    (new : Machine 11 k₁) (src₁ : Fin k₁ → SourceCfg 11 k₁) (hnew : new.sim = base.fresh src₁) :
    ∃ d M', M.toInput = .ok (d, M.sim) ∧ Machine.init m pow b g new d = .ok M' ∧ Alike M.sim M'.sim ∧
      ∀ (fuel : ℕ) (us : List Sim.RunInput), SameResult (fun x y => Alike x y ∧ SameOutputs x y)
        (Sim.runNSteps m fuel M.sim us) (Sim.runNSteps m fuel M'.sim us) := by
  obtain ⟨hV, t, ht, hc⟩ := elementTank_ok m pow hp base c vol UA M.sim h
  have hm := filled_meaningful base hsrc.good c t vol UA hV ht
  obtain ⟨hder, hacc⟩ := configure_settled hc
  obtain ⟨-, -, hT, hh, hsp, hst⟩ := C61_configured m pow _ M.sim hc
  obtain ⟨htank, hsrcs, hcfg, -, -⟩ := configure_cfg hp hm.volume hc
  have e : M.sim.inletT = -1 ∧ M.sim.haveInletT = false ∧ M.sim.socControl = none ∧ M.sim.soc = 1 ∧
      M.sim.locationT = Sim.uninitialisedLocation ∧ M.sim.timerTOT = 0 := by
    obtain ⟨s1, h1, -, e⟩ := configure_ok hc
    obtain ⟨ix, t', mp, -, -, -, rfl⟩ := calcDerived_ok h1
    rw [e]
    exact ⟨rfl, rfl, rfl, rfl, rfl, rfl⟩
  obtain ⟨e1, e2, e3, e4, e5, e6⟩ := e
  have off : ∀ i, M.sim.st i = .blank := fun i => by rw [hst]; rfl
  have q : ∀ i, (M.sim.cfg.src i).kind = (src i).kind ∧ (M.sim.cfg.src i).isVIP = (src i).isVIP ∧
      (M.sim.cfg.src i).turnOn = (src i).turnOn ∧ (M.sim.cfg.src i).shutOff = (src i).shutOff ∧
      (M.sim.cfg.src i).standby = (src i).standby := fun i => by
    rw [hsrcs i]; exact ⟨rfl, rfl, rfl, rfl, rfl⟩
  have helem : ∀ i, ∃ p, (M.sim.cfg.src i).kind = .resistance p := fun i => by
    obtain ⟨w, -, hk⟩ := (hsrc.good i).power
    exact ⟨w, (q i).1.trans hk⟩
  have hone : ∀ i j, (M.sim.cfg.src i).isVIP = true → (M.sim.cfg.src j).isVIP = true → i = j := fun i j hi hj =>
    hsrc.one i j ((q i).2.1 ▸ hi) ((q j).2.1 ▸ hj)
  have htemp : ∀ i, ∀ l ∈ (M.sim.cfg.src i).turnOn ++ (M.sim.cfg.src i).shutOff ++ (M.sim.cfg.src i).standby.toList,
      OnTemperature l := fun i l hl => by
    rw [(q i).2.2.1, (q i).2.2.2.1, (q i).2.2.2.2, (hsrc.good i).shutOff, hsrc.standby] at hl
    simp only [Option.toList_none, List.append_nil] at hl
    exact hsrc.turnOn i l hl
  have hstandby : ∀ i, ∀ l ∈ (M.sim.cfg.src i).standby, l.isValid = true := fun i l hl => by
    rw [(q i).2.2.2.2, hsrc.standby] at hl
    cases hl
  have hmix : M.sim.tank.mixesOnDraw = true → M.sim.tank.mixBelowFractionOnDraw > 0 := fun _ => by
    rw [htank]
    show t.mixBelowFractionOnDraw > 0
    rw [ht]
    show (1 / 3 : ℚ) > 0
    norm_num
  have hbase : SameUnwritten M.sim new.sim := by
    rw [hnew]
    refine ⟨?_, ?_, ?_, ?_, ?_, ?_, ?_⟩
    · rw [htank]; show 0 = t.inletHeight; rw [ht]; rfl
    · rw [htank]; show 0 = t.inlet2Height; rw [ht]; rfl
    · rw [htank]; show true = t.doInversionMixing; rw [ht]; rfl
    · rw [htank]; show true = t.doConduction; rw [ht]; rfl
    · rw [hcfg]; rfl
    · rw [hcfg]; rfl
    · rw [hcfg]; rfl
  have hstart : NotYetRun M.sim new.sim := by
    rw [hnew]
    refine ⟨hT, fun i => by rw [off]; rfl, fun i => by rw [off]; rfl, ?_, e1.symm, e2.symm, e3.symm, e4.symm, e5.symm,
      e6.symm⟩
    have : ¬ ∃ i, (M.sim.st i).isOn = true := by
      rintro ⟨i, hi⟩
      rw [off] at hi
      cases hi
    simpa [this] using hh
  obtain ⟨d, M', hexp, himp⟩ := Machine.C87_reread_accepted m pow b g hg M new helem hder hacc hnames hone
    (fun _ => hne) htemp hstandby hmix (by rw [hnew, hcfg]; rfl) (by rw [hnew, hcfg]; rfl)
    (by rw [hnew]; show (9 / 10 : ℚ) ≤ 1; norm_num)
  obtain ⟨h1, h2⟩ := Machine.C87_reread_runs m pow b g hg M M' new d M.sim helem hder hnames hone (fun _ => hne) htemp
    hmix hbase hstart hexp himp
  exact ⟨d, M', hexp, himp, h1, h2⟩

/-- **C87.** Every tank that `initResistanceTank` builds, from any volume, energy factor and powers it accepts, with any
names of its heat sources that differ and are not empty, can be written to a description. A new simulator that reads the
description accepts it and cannot be told apart from the first by any run of any length. -/
theorem C87_resistance_tank (m : Libm) (pow : ℚ → ℚ → ℚ) (hp : PowPos pow) (b : Btwxt) (g : Machine.PresetGroup)
    (hg : g = .other ∨ g = .scalable) {n₀ k₁ : ℕ} (base : Sim n₀ k₀) (vol EF up low : ℚ) (M : Machine 11 k)
    (h : initResistanceTank m pow base vol EF up low = .ok ⟨k, M.sim⟩)
    (hnames : Function.Injective M.name) (hne : ∀ i, M.name i ≠ "")
    (new : Machine 11 k₁) (src₁ : Fin k₁ → SourceCfg 11 k₁) (hnew : new.sim = base.fresh src₁) :
    ∃ d M', M.toInput = .ok (d, M.sim) ∧ Machine.init m pow b g new d = .ok M' ∧ Alike M.sim M'.sim ∧
      ∀ (fuel : ℕ) (us : List Sim.RunInput), SameResult (fun x y => Alike x y ∧ SameOutputs x y)
        (Sim.runNSteps m fuel M.sim us) (Sim.runNSteps m fuel M'.sim us) := by
  unfold initResistanceTank at h
  split_ifs at h with h1 h2 h3 h4
  · obtain ⟨rfl, h⟩ := packed_ok h
    exact elementTank_reread m pow hp b g hg base (bothElements_plain h4 (by linarith)) _ vol _ M h hnames hne new src₁
      hnew
  · obtain ⟨rfl, h⟩ := packed_ok h
    exact elementTank_reread m pow hp b g hg base (bottomElement_plain (by linarith)) _ vol _ M h hnames hne new src₁
      hnew

/-- **C87.** The same for every tank that `initResistanceTankGeneric` builds. -/
theorem C87_resistance_tank_generic (m : Libm) (pow : ℚ → ℚ → ℚ) (hp : PowPos pow) (b : Btwxt) (g : Machine.PresetGroup)
    (hg : g = .other ∨ g = .scalable) {n₀ k₁ : ℕ} (base : Sim n₀ k₀) (vol R up low : ℚ) (M : Machine 11 k)
    (h : initResistanceTankGeneric m pow base vol R up low = .ok ⟨k, M.sim⟩)
    (hnames : Function.Injective M.name) (hne : ∀ i, M.name i ≠ "")
    (new : Machine 11 k₁) (src₁ : Fin k₁ → SourceCfg 11 k₁) (hnew : new.sim = base.fresh src₁) :
    ∃ d M', M.toInput = .ok (d, M.sim) ∧ Machine.init m pow b g new d = .ok M' ∧ Alike M.sim M'.sim ∧
      ∀ (fuel : ℕ) (us : List Sim.RunInput), SameResult (fun x y => Alike x y ∧ SameOutputs x y)
        (Sim.runNSteps m fuel M.sim us) (Sim.runNSteps m fuel M'.sim us) := by
  obtain ⟨-, -, -, -, hor⟩ := (C81_generic_accepted_iff m pow hp base vol R up low).mp ⟨_, h⟩
  unfold initResistanceTankGeneric at h
  dsimp only at h
  split_ifs at h with h1 h2 h3 h4 h5 h5
  · obtain ⟨rfl, h⟩ := packed_ok h
    exact elementTank_reread m pow hp b g hg base (bothElements_plain h4 h5) _ vol _ M h hnames hne new src₁ hnew
  · obtain ⟨rfl, h⟩ := packed_ok h
    exact elementTank_reread m pow hp b g hg base (topElement_plain h4) _ vol _ M h hnames hne new src₁ hnew
  · obtain ⟨rfl, h⟩ := packed_ok h
    exact elementTank_reread m pow hp b g hg base (bottomElement_plain h5) _ vol _ M h hnames hne new src₁ hnew
  · exact (hor.elim h4 h5).elim

/-! ## That the theorems speak about something -/

/-- The sample heater with the distributions of the heat written with heights twelve times and weights ten times as
large, and with another effectiveness for the heat exchanger it does not have. -/
def sampleTwin : Sim 3 2 :=
  { sampleSim with
    cfg := { sampleSim.cfg with
      src := fun i => { sampleSim.cfg.src i with heatDist := (sampleSim.cfg.src i).heatDist.rescale (1 / 12) (1 / 10) } }
    tank := { sampleSim.tank with heatExchangerEffectiveness := 1 / 7, nodeHeatExchangerEffectiveness := 1 / 7 } }

/-- Two heaters that are written differently and alike: the theorems on steps and runs say the same of both, and the
run below does not fail. -/
example : Alike sampleSim sampleTwin ∧ (sampleTwin.cfg.src 1).heatDist ≠ (sampleSim.cfg.src 1).heatDist ∧
    sampleTwin.tank.nodeHeatExchangerEffectiveness ≠ sampleSim.tank.nodeHeatExchangerEffectiveness ∧
    (∃ s', Sim.runNSteps sampleLibm 5 sampleTwin sampleRun = .ok s' ∧ 0 < (s'.st 0).energyOutput_kWh) := by
  have hs : ∀ l : Logic, SameLogic l l := fun l => Logic.same_of_kind l l rfl rfl rfl rfl
  have hl : ∀ ls : List Logic, List.Forall₂ SameLogic ls ls := fun ls => List.forall₂_same.mpr fun l _ => hs l
  have ho : ∀ l : Option Logic, Option.Rel SameLogic l l := fun l => by
    cases l with
    | none => exact .none
    | some l => exact .some (hs l)
  refine ⟨⟨⟨fun i => ?_, rfl, rfl, rfl, rfl, rfl, rfl, rfl, fun _ => ⟨rfl, rfl⟩⟩, ⟨rfl, fun _ => rfl, fun h => by cases h⟩,
    ⟨rfl, rfl, rfl, rfl, rfl, rfl, fun _ => rfl, fun _ => rfl, rfl, rfl, rfl⟩⟩, by decide +kernel, by decide +kernel,
    by decide +kernel⟩
  have h1 : (1 / 12 : ℚ) ≠ 0 := by norm_num
  have h2 : (0 : ℚ) < 1 / 10 := by norm_num
  exact ⟨rfl, rfl, rfl, rfl, rfl, fun N => ⟨WDist.rescale_calcHeatDist h1 h2.ne' _ N,
    WDist.rescale_findLowestNode h1 h2.ne' _ N, fun log => WDist.rescale_findShrinkage h1 h2.ne' log _ N⟩,
    fun T => WDist.rescale_averageT h1 h2 _ T, hl _, hl _, ho _, rfl, fun _ => ⟨rfl, rfl, rfl, rfl, rfl, rfl, rfl⟩⟩

/-- The tank of 47.5 gal with two elements of 4500 W, named "top" and "bottom", on any simulator. -/
example (base : Sim 3 2) : ∃ (k : ℕ) (M : Machine 11 k) (new : Machine 11 0),
    initResistanceTankDefault sampleLibm samplePow base = .ok ⟨k, M.sim⟩ ∧ k = 2 ∧ Function.Injective M.name ∧
    (∀ i, M.name i ≠ "") ∧ new.sim = base.fresh ![] ∧
    ∃ d M', M.toInput = .ok (d, M.sim) ∧ Machine.init sampleLibm samplePow sampleBtwxt .other new d = .ok M' ∧
      ∀ (fuel : ℕ) (us : List Sim.RunInput), SameResult (fun x y => Alike x y ∧ SameOutputs x y)
        (Sim.runNSteps sampleLibm fuel M.sim us) (Sim.runNSteps sampleLibm fuel M'.sim us) := by
  obtain ⟨⟨k, s⟩, h⟩ : ∃ r, initResistanceTankDefault sampleLibm samplePow base = .ok r :=
    (C81_accepted_iff _ _ samplePow_pos _ _ _ _ _).mpr (by norm_num [Units.GAL_TO_L, Units.LPerGal])
  have hk : k = 2 := by
    have h' := h
    unfold initResistanceTankDefault initResistanceTank at h'
    norm_num at h'
    obtain ⟨e, -⟩ := packed_ok h'
    exact e.symm
  subst hk
  let M : Machine 11 2 :=
    { sim := s, name := !["top", "bottom"], srcInfo := fun _ => ⟨none, none, none⟩, grid := fun _ => none
      tankInfo := ⟨none, none, none⟩, info := ⟨none, none, none⟩, rating := Machine.sampleMachine.rating, useCOP := false
      style := .other }
  let new : Machine 11 0 :=
    { sim := base.fresh ![], name := ![], srcInfo := ![], grid := ![]
      tankInfo := ⟨none, none, none⟩, info := ⟨none, none, none⟩, rating := Machine.sampleMachine.rating, useCOP := false
      style := .other }
  have hn : Function.Injective M.name := by
    show Function.Injective !["top", "bottom"]
    decide
  have he : ∀ i, M.name i ≠ "" := by
    show ∀ i, (!["top", "bottom"] : Fin 2 → String) i ≠ ""
    decide
  obtain ⟨d, M', h1, h2, -, h3⟩ := C87_resistance_tank sampleLibm samplePow samplePow_pos sampleBtwxt .other (.inl rfl)
    base _ _ _ _ M h hn he new ![] rfl
  exact ⟨2, M, new, h, rfl, hn, he, rfl, d, M', h1, h2, h3⟩

end HPWH
