import Verif.Model.Import
import Verif.Lemmas.HeatSource

/-! # Facts about exporting and importing whole simulators -/

namespace HPWH

variable {n k k₀ : ℕ}

theorem get_ok {α : Type} {r : Res α} (h : r.isOk = true) : r = .ok (Res.get r h) := by
  cases r with
  | ok x => rfl
  | error e => cases h

theorem collect_ok {α : Type} {f : Fin k → Res α} {g : Fin k → α} (h : collect f = .ok g) :
    ∀ i, f i = .ok (g i) := by
  unfold collect at h
  split_ifs at h with hall
  · simp only [Except.ok.injEq] at h
    intro i
    rw [← h]
    exact get_ok (hall i)
  · split at h <;> cases h

theorem collect_of_ok {α : Type} {f : Fin k → Res α} {g : Fin k → α} (h : ∀ i, f i = .ok (g i)) :
    collect f = .ok g := by
  have hf : f = fun i => .ok (g i) := funext h
  subst hf
  unfold collect
  have : ∀ i : Fin k, Except.isOk ((fun i => (.ok (g i) : Res α)) i) = true := fun _ => rfl
  rw [dif_pos this]
  rfl

/-- `s'` is `s` up to the setpoint. -/
def Sim.SameBut (s s' : Sim n k) : Prop := ∃ x, s' = { s with setpoint := x }

namespace Sim.SameBut

theorem refl (s : Sim n k) : SameBut s s := ⟨s.setpoint, rfl⟩

theorem trans {a b c : Sim n k} (h : SameBut a b) (h' : SameBut b c) : SameBut a c := by
  obtain ⟨x, rfl⟩ := h
  obtain ⟨y, rfl⟩ := h'
  exact ⟨y, rfl⟩

theorem cfg {a b : Sim n k} (h : SameBut a b) : b.cfg = a.cfg := by obtain ⟨x, rfl⟩ := h; rfl

/-- With the same setpoint it is the same simulator. -/
theorem eq {a b : Sim n k} (h : SameBut a b) (hs : b.setpoint = a.setpoint) : b = a := by
  obtain ⟨x, rfl⟩ := h
  simp only at hs
  subst hs
  rfl

end Sim.SameBut

theorem setSetpoint_ok {s s' : Sim n k} {x : ℚ} (h : s.setSetpoint x = .ok s') :
    s' = { s with setpoint := x } := by
  unfold Sim.setSetpoint at h
  split_ifs at h
  simp only [Except.ok.injEq] at h
  exact h.symm

/-- The values found by the loop over the grid points, and the simulator afterwards. -/
theorem sampleSetpoints_ok {c : CondCfg} {pts : List (ℚ × ℚ × ℚ)} {s s' : Sim n k} {v : List Perf}
    (h : sampleSetpoints c pts s = .ok (v, s')) :
    s.SameBut s' ∧ v = pts.map fun p =>
      c.evaluate (Units.K_TO_C p.2.2 - c.hotSideOffset) (Units.K_TO_C p.1) (Units.K_TO_C p.2.1) := by
  induction pts generalizing s s' v with
  | nil =>
    simp only [sampleSetpoints, Except.ok.injEq, Prod.mk.injEq] at h
    obtain ⟨rfl, rfl⟩ := h
    exact ⟨.refl _, rfl⟩
  | cons p ps ih =>
    simp only [sampleSetpoints] at h
    obtain ⟨s1, h1, h⟩ := (bind_ok_iff _ _ _).mp h
    obtain ⟨r, hr, h⟩ := (bind_ok_iff _ _ _).mp h
    simp only [pure, Except.pure, Except.ok.injEq, Prod.mk.injEq] at h
    obtain ⟨rfl, rfl⟩ := h
    have e := setSetpoint_ok h1
    obtain ⟨hs, hv⟩ := ih (s' := r.2) (v := r.1) hr
    refine ⟨.trans ⟨_, e⟩ hs, ?_⟩
    rw [List.map_cons, ← hv, e]

theorem externalMap_sameBut {s s' : Sim n k} {c : CondCfg} {lo hi : ℚ} {g : Option (PerfGrid ℚ)} {m : RsMap}
    (h : externalMap s c lo hi g = .ok (m, s')) : s.SameBut s' := by
  unfold externalMap at h
  cases g with
  | none =>
    simp only at h
    obtain ⟨r, hr, h⟩ := (bind_ok_iff _ _ _).mp h
    obtain ⟨s2, h2, h⟩ := (bind_ok_iff _ _ _).mp h
    simp only [pure, Except.pure, Except.ok.injEq, Prod.mk.injEq] at h
    obtain ⟨-, rfl⟩ := h
    exact .trans (sampleSetpoints_ok (v := r.1) (s' := r.2) hr).1 ⟨_, setSetpoint_ok h2⟩
  | some g =>
    simp only at h
    split at h
    · simp only [Except.ok.injEq, Prod.mk.injEq] at h
      exact ⟨_, h.2.symm⟩
    · cases h

namespace Machine

/-- What exporting the heat source proper does. -/
theorem sourceToRs_ok {M : Machine n k} {s s' : Sim n k} {i : Fin k} {x : RsSource}
    (h : M.sourceToRs s i = .ok (x, s')) :
    (∃ p, (s.cfg.src i).kind = .resistance p ∧ x = .resistance (M.srcInfo i).toRs (1000 * p) ∧ s' = s) ∨
    (∃ c y, (s.cfg.src i).kind = .condenser c ∧ c.configuration = .external ∧ compressorExternal s = true ∧
      heatPumpToRs s c (M.srcInfo i) (s.cfg.src i).minT (s.cfg.src i).maxT (M.grid i) = .ok (y, s') ∧
      x = .heatPump y) ∨
    (∃ c y, (s.cfg.src i).kind = .condenser c ∧ c.configuration ≠ .external ∧ compressorExternal s = false ∧
      condenserToRs c (M.srcInfo i) (s.cfg.src i).minT (s.cfg.src i).maxT M.useCOP (M.grid i) s.setpoint
        = .ok y ∧ x = .condenser y ∧ s' = s) := by
  unfold sourceToRs at h
  simp only at h
  split at h
  next p hk =>
    simp only [Except.ok.injEq, Prod.mk.injEq] at h
    exact Or.inl ⟨p, hk, h.1.symm, h.2.symm⟩
  next c hk =>
    right
    by_cases h0 : s.cfg.compressorIndex = none
    · rw [if_pos h0] at h; cases h
    rw [if_neg h0] at h
    by_cases h1 : compressorExternal s ≠ decide (c.configuration = .external)
    · rw [if_pos h1] at h; cases h
    rw [if_neg h1] at h
    push Not at h1
    by_cases h2 : c.configuration = .external
    · rw [if_pos h2] at h
      obtain ⟨r, hr, h⟩ := (bind_ok_iff _ _ _).mp h
      simp only [pure, Except.pure, Except.ok.injEq, Prod.mk.injEq] at h
      obtain ⟨rfl, rfl⟩ := h
      exact Or.inl ⟨c, r.1, hk, h2, by rw [h1]; exact decide_eq_true h2, hr, rfl⟩
    · rw [if_neg h2] at h
      obtain ⟨r, hr, h⟩ := (bind_ok_iff _ _ _).mp h
      simp only [pure, Except.pure, Except.ok.injEq, Prod.mk.injEq] at h
      obtain ⟨rfl, rfl⟩ := h
      exact Or.inr ⟨c, r, hk, h2, by rw [h1]; exact decide_eq_false h2, hr, rfl, rfl⟩

theorem heatPumpToRs_ok {s s' : Sim n k} {c : CondCfg} {info : Info} {lo hi : ℚ} {g : Option (PerfGrid ℚ)}
    {y : RsHeatPump} (h : heatPumpToRs s c info lo hi g = .ok (y, s')) :
    ∃ m, externalMap s c lo hi g = .ok (m, s') ∧ y.map = some m ∧ y.info = info.toRs ∧
      y.maxRefrigerantT = some (Units.C_TO_K c.maxSetpoint) ∧ y.hysteresis = some c.hysteresis ∧
      y.useDefrost = some c.doDefrost ∧
      y.standbyPower = (if c.standbyPower_kW > 0 then some (1000 * c.standbyPower_kW) else none) ∧
      y.resDefrost = (if c.resDefrostPower_kW > 0 then
          some { inputPower := Units.KW_TO_W c.resDefrostPower_kW, lift := Units.dF_TO_dC c.resDefrostLift_dF
                 activation := Units.F_TO_K c.resDefrostOnBelow_F } else none) ∧
      y.lowLimit = (if c.maxOutAirT > -(27315 / 100) then
          some { maxSetpoint := Units.C_TO_K c.maxOutT, threshold := Units.C_TO_K c.maxOutAirT } else none) := by
  unfold heatPumpToRs at h
  obtain ⟨r, hr, h⟩ := (bind_ok_iff _ _ _).mp h
  simp only [pure, Except.pure, Except.ok.injEq, Prod.mk.injEq] at h
  obtain ⟨rfl, rfl⟩ := h
  exact ⟨r.1, hr, rfl, rfl, rfl, rfl, rfl, rfl, rfl, rfl⟩

theorem sourceToRs_sameBut {M : Machine n k} {s s' : Sim n k} {i : Fin k} {x : RsSource}
    (h : M.sourceToRs s i = .ok (x, s')) : s.SameBut s' := by
  rcases sourceToRs_ok h with ⟨p, _, _, rfl⟩ | ⟨c, y, _, _, _, hy, _⟩ | ⟨c, y, _, _, _, _, _, rfl⟩
  · exact .refl _
  · obtain ⟨m, hm, _⟩ := heatPumpToRs_ok hy
    exact externalMap_sameBut hm
  · exact .refl _

/-- What an exported heat source consists of. -/
structure Exported (M : Machine n k) (s s' : Sim n k) (i : Fin k) (c : RsConfig) : Prop where
  id : c.id = some (M.name i)
  dist : ∃ d, (s.cfg.src i).heatDist.toRs = .ok d ∧ c.heatDist = some d
  shutOff : (s.cfg.src i).shutOff.mapM Logic.toRs = .ok c.shutOff
  turnOn : (s.cfg.src i).turnOn.mapM Logic.toRs = .ok c.turnOn
  standby : (s.cfg.src i).standby.mapM Logic.toRs = .ok c.standby
  backup : c.backup = (s.cfg.src i).backup.map M.name
  followedBy : c.followedBy = (s.cfg.src i).followedBy.map M.name
  companion : c.companion = (s.cfg.src i).companion.map M.name
  source : M.sourceToRs s i = .ok (c.source, s')

theorem configToRs_ok {M : Machine n k} {s s' : Sim n k} {i : Fin k} {c : RsConfig}
    (h : M.configToRs s i = .ok (c, s')) : M.Exported s s' i c := by
  unfold configToRs at h
  simp only at h
  obtain ⟨d, hd, h⟩ := (bind_ok_iff _ _ _).mp h
  obtain ⟨so, hso, h⟩ := (bind_ok_iff _ _ _).mp h
  obtain ⟨ton, hto, h⟩ := (bind_ok_iff _ _ _).mp h
  obtain ⟨sb, hsb, h⟩ := (bind_ok_iff _ _ _).mp h
  obtain ⟨r, hr, h⟩ := (bind_ok_iff _ _ _).mp h
  simp only [pure, Except.pure, Except.ok.injEq, Prod.mk.injEq] at h
  obtain ⟨rfl, rfl⟩ := h
  exact ⟨rfl, ⟨d, hd, rfl⟩, hso, hto, hsb, rfl, rfl, rfl, hr⟩

/-- The loop over the heat sources: each is exported once, in a simulator that may differ from the
original one in its setpoint. -/
theorem configLoop_ok {M : Machine n k} {l : List (Fin k)} (hl : l.Nodup) {cs cs' : Fin k → RsConfig}
    {s s' : Sim n k} (h : M.configLoop l cs s = .ok (cs', s')) :
    s.SameBut s' ∧ (∀ i, i ∉ l → cs' i = cs i) ∧
      ∀ i ∈ l, ∃ s1 s2, s.SameBut s1 ∧ M.Exported s1 s2 i (cs' i) := by
  induction l generalizing cs s with
  | nil =>
    simp only [configLoop, Except.ok.injEq, Prod.mk.injEq] at h
    obtain ⟨rfl, rfl⟩ := h
    exact ⟨.refl _, fun _ _ => rfl, fun i hi => by cases hi⟩
  | cons j js ih =>
    simp only [configLoop] at h
    obtain ⟨r, hr, h⟩ := (bind_ok_iff _ _ _).mp h
    have hx := configToRs_ok (c := r.1) (s' := r.2) hr
    have hsb := sourceToRs_sameBut hx.source
    obtain ⟨hj, hjs⟩ := List.nodup_cons.mp hl
    obtain ⟨h1, h2, h3⟩ := ih hjs h
    refine ⟨hsb.trans h1, ?_, ?_⟩
    · intro i hi
      rw [List.mem_cons, not_or] at hi
      rw [h2 i hi.2, Function.update_of_ne hi.1]
    · intro i hi
      by_cases hij : i = j
      · subst hij
        refine ⟨s, r.2, .refl _, ?_⟩
        rw [h2 i hj, Function.update_self]
        exact hx
      · rcases List.mem_cons.mp hi with e | e
        · exact absurd e hij
        · obtain ⟨s1, s2, a, b⟩ := h3 i e
          exact ⟨s1, s2, hsb.trans a, b⟩

theorem configs_ok {M : Machine n k} {cs : Fin k → RsConfig} {s' : Sim n k}
    (h : M.configLoop (List.finRange k) (fun _ => .blank) M.sim = .ok (cs, s')) :
    M.sim.SameBut s' ∧ ∀ i, ∃ s1 s2, M.sim.SameBut s1 ∧ M.Exported s1 s2 i (cs i) := by
  obtain ⟨h1, _, h3⟩ := configLoop_ok (List.nodup_finRange k) h
  exact ⟨h1, fun i => h3 i (List.mem_finRange i)⟩

/-- What an exported simulator consists of. -/
structure ExportedAll (M : Machine n k) (d : SimInput k) (s' : Sim n k) : Prop where
  sameBut : M.sim.SameBut s'
  depresses : d.depressesTemperature = some M.sim.cfg.doTempDepression
  nodes : d.numberOfNodes = some (n + 1)
  fixedVolume : d.fixedVolume = some M.sim.tank.volumeFixed
  setpoint : d.standardSetpoint = some (Units.C_TO_K M.sim.setpoint)
  cop : d.interpolateCop = if M.sim.cfg.compressorIndex.isSome then some M.useCOP else none
  system : (∃ x, d.system = .integrated x ∧ compressorExternal M.sim = false ∧ x.info = M.info.toRs ∧
      x.rating = M.rating.toRs ∧ x.tank = M.sim.tank.toRs M.tankInfo ∧ x.primary = M.primaryName ∧
      M.configLoop (List.finRange k) (fun _ => .blank) M.sim = .ok (x.configs, s')) ∨
    (∃ x j c, d.system = .central x ∧ compressorExternal M.sim = true ∧
      x.tank = M.sim.tank.toRs M.tankInfo ∧ x.primary = M.primaryName ∧
      M.configLoop (List.finRange k) (fun _ => .blank) M.sim = .ok (x.configs, s') ∧
      M.sim.cfg.compressorIndex = some j ∧ (M.sim.cfg.src j).kind = .condenser c ∧
      x.inletHeight = some (((M.sim.cfg.src j).externalInlet.val : ℚ) / ((n + 1 : ℕ) : ℚ)) ∧
      x.outletHeight = some (((M.sim.cfg.src j).externalOutlet.val : ℚ) / ((n + 1 : ℕ) : ℚ)) ∧
      x.fixedFlowRate = (if c.isMultipass then some (c.mpFlowRate_LPS / 1000) else none) ∧
      x.exchanger = if c.extraPumpPower_W > 0 then
          some { coldOffset := c.coldSideOffset, hotOffset := c.hotSideOffset
                 extraPumpPower := c.extraPumpPower_W }
        else none)

theorem compressor_ok {s : Sim n k} {j : Fin k} {c : CondCfg} (h : s.compressor = .ok (j, c)) :
    s.cfg.compressorIndex = some j ∧ (s.cfg.src j).kind = .condenser c := by
  unfold Sim.compressor at h
  split at h
  · cases h
  next j' hj =>
    split at h
    next c' hc =>
      simp only [Except.ok.injEq, Prod.mk.injEq] at h
      obtain ⟨rfl, rfl⟩ := h
      exact ⟨hj, hc⟩
    · cases h

theorem map_ok {α β : Type} {r : Res α} {f : α → β} {y : β} (h : r.map f = .ok y) :
    ∃ x, r = .ok x ∧ y = f x := by
  cases r with
  | ok x => exact ⟨x, rfl, by simpa [Except.map] using h.symm⟩
  | error e => cases h

theorem toInput_ok {M : Machine n k} {d : SimInput k} {s' : Sim n k} (h : M.toInput = .ok (d, s')) :
    M.ExportedAll d s' := by
  unfold toInput at h
  obtain ⟨r, hr, h⟩ := (bind_ok_iff _ _ _).mp h
  simp only [pure, Except.pure, Except.ok.injEq, Prod.mk.injEq] at h
  obtain ⟨rfl, rfl⟩ := h
  unfold systemToRs at hr
  by_cases hc : compressorExternal M.sim = true
  · rw [if_pos hc] at hr
    obtain ⟨x, hx, rfl⟩ := map_ok hr
    unfold centralToRs at hx
    obtain ⟨q, hq, hx⟩ := (bind_ok_iff _ _ _).mp hx
    simp only at hx
    obtain ⟨jc, hjc, hx⟩ := (bind_ok_iff _ _ _).mp hx
    simp only [pure, Except.pure, Except.ok.injEq] at hx
    subst hx
    have hsb := (configs_ok (cs := q.1) (s' := q.2) hq).1
    obtain ⟨hj, hk⟩ := compressor_ok (j := jc.1) (c := jc.2) hjc
    rw [hsb.cfg] at hj hk
    refine ⟨hsb, rfl, rfl, rfl, rfl, rfl, Or.inr ⟨_, jc.1, jc.2, rfl, hc, rfl, rfl, hq, hj, hk, ?_, ?_, rfl, rfl⟩⟩
    · simp only; rw [hsb.cfg]
    · simp only; rw [hsb.cfg]
  · rw [if_neg hc] at hr
    obtain ⟨x, hx, rfl⟩ := map_ok hr
    unfold integratedToRs at hx
    obtain ⟨q, hq, hx⟩ := (bind_ok_iff _ _ _).mp hx
    simp only [pure, Except.pure, Except.ok.injEq] at hx
    subst hx
    have hsb := (configs_ok (cs := q.1) (s' := q.2) hq).1
    exact ⟨hsb, rfl, rfl, rfl, rfl, rfl, Or.inl ⟨_, rfl, by simpa using hc, rfl, rfl, rfl, rfl, hq⟩⟩

end Machine

end HPWH
