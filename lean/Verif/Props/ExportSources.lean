import Verif.Lemmas.Import
import Verif.Props.ExportTank
import Verif.Props.ExportLogic
import Verif.Props.Accept
import Verif.Props.Grid
import Verif.Props.Ports

/-! # C60, C68: the simulator after an export; heat sources after export and import -/

namespace HPWH

open Spec

variable {n k k₀ : ℕ}

/-! ## C60 -/

/-- Without a grid the export of an external condenser puts the setpoint back. -/
theorem externalMap_none {s s' : Sim n k} {c : CondCfg} {lo hi : ℚ} {m : RsMap}
    (h : externalMap s c lo hi none = .ok (m, s')) : s' = s := by
  have hsb := externalMap_sameBut h
  unfold externalMap at h
  simp only at h
  obtain ⟨r, hr, h⟩ := (bind_ok_iff _ _ _).mp h
  obtain ⟨s2, h2, h⟩ := (bind_ok_iff _ _ _).mp h
  simp only [pure, Except.pure, Except.ok.injEq, Prod.mk.injEq] at h
  obtain ⟨-, rfl⟩ := h
  refine hsb.eq ?_
  rw [setSetpoint_ok h2]

namespace Machine

theorem configLoop_same {M : Machine n k} {l : List (Fin k)} {cs cs' : Fin k → RsConfig} {s s' : Sim n k}
    (hg : ∀ i c, (s.cfg.src i).kind = .condenser c → c.configuration = .external → M.grid i = none)
    (h : M.configLoop l cs s = .ok (cs', s')) : s' = s := by
  induction l generalizing cs s with
  | nil =>
    simp only [configLoop, Except.ok.injEq, Prod.mk.injEq] at h
    exact h.2.symm
  | cons j js ih =>
    simp only [configLoop] at h
    obtain ⟨r, hr, h⟩ := (bind_ok_iff _ _ _).mp h
    have hx := (configToRs_ok (c := r.1) (s' := r.2) hr).source
    have e : r.2 = s := by
      rcases sourceToRs_ok hx with ⟨p, _, _, e⟩ | ⟨c, y, hk, hc, _, hy, _⟩ | ⟨c, y, _, _, _, _, _, e⟩
      · exact e
      · obtain ⟨m, hm, _⟩ := heatPumpToRs_ok hy
        rw [hg j c hk hc] at hm
        exact externalMap_none hm
      · exact e
    rw [e] at h
    exact ih hg h

/-- **C60 (part).** An export leaves the simulator as it was, if no external condenser's performance is given
by a grid: in particular for every integrated system, and for external condensers with performance functions
(whose export changes the setpoint many times). Missing: external condensers with grids
(`C60_grid_overwrites_setpoint`). -/
theorem C60_export_unchanged_partial (M : Machine n k) (d : SimInput k) (s' : Sim n k)
    (hg : ∀ i c, (M.sim.cfg.src i).kind = .condenser c → c.configuration = .external → M.grid i = none)
    (h : M.toInput = .ok (d, s')) : s' = M.sim := by
  rcases (toInput_ok h).system with ⟨x, _, _, _, _, _, _, hl⟩ | ⟨x, j, c, _, _, _, _, hl, _⟩
  · exact configLoop_same hg hl
  · exact configLoop_same hg hl

/-- **C60.** Whatever the performance is given by, nothing but the setpoint changes. -/
theorem C60_only_setpoint (M : Machine n k) (d : SimInput k) (s' : Sim n k) (h : M.toInput = .ok (d, s')) :
    ∃ x, s' = { M.sim with setpoint := x } := (toInput_ok h).sameBut

/-- The setpoint written to the description is the one before the export. -/
theorem C60_setpoint_written (M : Machine n k) (d : SimInput k) (s' : Sim n k) (h : M.toInput = .ok (d, s')) :
    d.standardSetpoint = some (M.sim.setpoint + 27315 / 100) := by
  rw [(toInput_ok h).setpoint]
  unfold Units.C_TO_K Units.absoluteZeroC
  congr 1; ring

end Machine

theorem foldl_last {α β : Type} (f : α → β) (b : β) (l : List α) (hl : l ≠ []) :
    l.foldl (fun _ x => f x) b = f (l.getLast hl) := by
  induction l generalizing b with
  | nil => exact absurd rfl hl
  | cons x xs ih =>
    by_cases hx : xs = []
    · subst hx; rfl
    · rw [List.foldl_cons, ih _ hx, List.getLast_cons hx]

theorem getLast_flatMap {α β : Type} (f : α → List β) (l : List α) (hl : l ≠ []) (hf : f (l.getLast hl) ≠ []) :
    ∃ h, (l.flatMap f).getLast h = (f (l.getLast hl)).getLast hf := by
  induction l with
  | nil => exact absurd rfl hl
  | cons x xs ih =>
    by_cases hx : xs = []
    · subst hx
      have : List.flatMap f [x] = f x := by simp
      simp only [this]
      exact ⟨hf, rfl⟩
    · have hl' : (x :: xs).getLast hl = xs.getLast hx := List.getLast_cons hx
      have hf' : f (xs.getLast hx) ≠ [] := by rw [← hl']; exact hf
      obtain ⟨h, e⟩ := ih hx hf'
      refine ⟨by simp [List.flatMap_cons, h], ?_⟩
      simp only [List.flatMap_cons, List.getLast_append_of_ne_nil _ h, e, hl']

/-- **C60 fails for an external condenser with a grid**: afterwards the setpoint is the last of the grid's
leaving temperatures, less the offset of the secondary heat exchanger, whatever it was before. -/
theorem C60_grid_overwrites_setpoint {s s' : Sim n k} {c : CondCfg} {lo hi : ℚ} {g : PerfGrid ℚ} {m : RsMap}
    {a0 a1 a2 : List ℚ} {rest : List (List ℚ)} (hg : g.axes = a0 :: a1 :: a2 :: rest)
    (h0 : lo ≤ hi) (h1 : a1 ≠ []) (h2 : a2 ≠ [])
    (h : externalMap s c lo hi (some g) = .ok (m, s')) :
    s'.setpoint = a2.getLast h2 - c.hotSideOffset := by
  unfold externalMap at h
  simp only [hg, Except.ok.injEq, Prod.mk.injEq] at h
  obtain ⟨-, rfl⟩ := h
  simp only
  have ht : trimGridVector (a0 ++ [lo, hi]) lo hi ≠ [] := by
    have : lo ∈ trimGridVector (a0 ++ [lo, hi]) lo hi := by
      rw [(C47_trim _ lo hi).2]
      exact ⟨by simp, le_rfl, h0⟩
    exact List.ne_nil_of_mem this
  generalize hE : trimGridVector (a0 ++ [lo, hi]) lo hi = E at ht
  have hinner : ∀ e : ℚ, (a1.flatMap fun w => a2.map fun o => (e, w, o)) ≠ [] ∧
      ∀ hne, ((a1.flatMap fun w => a2.map fun o => (e, w, o)).getLast hne).2.2 = a2.getLast h2 := by
    intro (e : ℚ)
    obtain ⟨hne, he⟩ := getLast_flatMap (fun w => a2.map fun o => (e, w, o)) a1 h1 (by simp [h2])
    refine ⟨hne, fun _ => ?_⟩
    rw [he, List.getLast_map]
  obtain ⟨hne, he⟩ := getLast_flatMap (fun e => a1.flatMap fun w => a2.map fun o => (e, w, o)) E ht
    (hinner _).1
  unfold gridPoints
  rw [foldl_last (fun p : ℚ × ℚ × ℚ => p.2.2 - c.hotSideOffset) _ _ hne, he, (hinner _).2]

/-! ## C68 -/

theorem WDist.same_of_toRs {d : WDist} {r : RsDist} (h : d.toRs = .ok r) : SameHeatShares (WDist.ofRs r) d := by
  obtain ⟨a, w, ha, hw, _, e⟩ := WDist.toRs_ok h
  intro N
  rw [e]
  exact ⟨rescale_calcHeatDist ha hw.ne' d N, rescale_findLowestNode ha hw.ne' d N,
    fun log => rescale_findShrinkage ha hw.ne' log d N⟩

theorem Logic.list_round_trip {l : List Logic} {r : List RsLogic} (h : l.mapM Logic.toRs = .ok r)
    {l' : List Logic} (h' : Logic.listOfRs r = .ok l') (ht : ∀ x ∈ l, OnTemperature x) :
    List.Forall₂ SameLogic l' l := by
  induction l generalizing r l' with
  | nil =>
    simp only [List.mapM_nil, pure, Except.pure, Except.ok.injEq] at h
    subst h
    simp only [Logic.listOfRs, List.mapM_nil, pure, Except.pure, bind, Except.bind, Except.ok.injEq] at h'
    subst h'
    exact .nil
  | cons x xs ih =>
    rw [List.mapM_cons] at h
    obtain ⟨y, hy, h⟩ := (bind_ok_iff _ _ _).mp h
    obtain ⟨ys, hys, h⟩ := (bind_ok_iff _ _ _).mp h
    simp only [pure, Except.pure, Except.ok.injEq] at h
    subst h
    obtain ⟨b, d, hk⟩ := ht x (by simp)
    obtain ⟨x', hx', hs⟩ := Logic.C44_same_decision_partial x b d hk y hy
    unfold Logic.listOfRs at h'
    obtain ⟨q, hq, h'⟩ := (bind_ok_iff _ _ _).mp h'
    rw [List.mapM_cons, hx'] at hq
    obtain ⟨q1, hq1, hq⟩ := (bind_ok_iff _ _ _).mp hq
    obtain rfl := Except.ok.inj hq1
    obtain ⟨qs, hqs, hq⟩ := (bind_ok_iff _ _ _).mp hq
    simp only [pure, Except.pure, Except.ok.injEq] at hq h'
    subst hq
    subst h'
    refine .cons hs (ih hys ?_ fun z hz => ht z (by simp [hz]))
    unfold Logic.listOfRs
    rw [hqs]
    rfl

theorem Logic.option_round_trip {l : Option Logic} {r : Option RsLogic} (h : l.mapM Logic.toRs = .ok r)
    {l' : Option (Option Logic)} (h' : r.mapM Logic.ofRs = .ok l') (ht : ∀ x ∈ l, OnTemperature x) :
    Option.Rel SameLogic l'.join l := by
  cases l with
  | none =>
    simp only [Option.mapM_none, pure, Except.pure, Except.ok.injEq] at h
    subst h
    simp only [Option.mapM_none, pure, Except.pure, Except.ok.injEq] at h'
    subst h'
    exact .none
  | some x =>
    rw [Option.mapM_some] at h
    obtain ⟨y, hy, e⟩ := Machine.map_ok h
    subst e
    obtain ⟨b, d, hk⟩ := ht x (by simp)
    obtain ⟨x', hx', hs⟩ := Logic.C44_same_decision_partial x b d hk y hy
    rw [Option.mapM_some, hx'] at h'
    obtain ⟨z, hz, e⟩ := Machine.map_ok h'
    obtain rfl := Except.ok.inj hz
    subst e
    exact .some hs

namespace Machine

/-- The configurations a description consists of, exported and imported again. -/
theorem round_trip {M M' : Machine n k} {b : Btwxt} {base : Machine n k₀} {d : SimInput k} {s' : Sim n k}
    (he : M.toInput = .ok (d, s')) (hi : ofInput b base d = .ok M') :
    ∃ (tank : RsTank) (configs : Fin k → RsConfig) (rs : Fin k → ReadSource n k),
      tank = M.sim.tank.toRs M.tankInfo ∧
      ImportedAll base d tank configs M.primaryName M' rs ∧
      ∀ i, ∃ s1 s2, M.sim.SameBut s1 ∧ M.Exported s1 s2 i (configs i) ∧
        (readIntegratedSource b base.style (d.interpolateCop.getD false) (configs i).source = .ok (rs i) ∨
          ∃ (x : RsCentral k) (r : ReadSource n k), readCentralSource b base.style
            (d.interpolateCop.getD false) x.fixedFlowRate x.exchanger (configs i).source = .ok r ∧
            readPorts x r = .ok (rs i)) := by
  rcases (toInput_ok he).system with ⟨x, hx, _, _, _, h1, h2, h3⟩ | ⟨x, j, c, hx, _, h1, h2, h3, _⟩
  · obtain ⟨rs, ha, hb, _⟩ := ofInput_integrated hx hi
    rw [h2] at ha
    refine ⟨x.tank, x.configs, rs, h1, ha, fun i => ?_⟩
    obtain ⟨s1, s2, a, c⟩ := (configs_ok h3).2 i
    exact ⟨s1, s2, a, c, Or.inl (hb i)⟩
  · obtain ⟨rs, ha, hb, _⟩ := ofInput_central hx hi
    rw [h2] at ha
    refine ⟨x.tank, x.configs, rs, h1, ha, fun i => ?_⟩
    obtain ⟨s1, s2, a, c⟩ := (configs_ok h3).2 i
    obtain ⟨r, hr, hr'⟩ := hb i
    exact ⟨s1, s2, a, c, Or.inr ⟨x, r, hr, hr'⟩⟩

theorem sameKind {M M' : Machine n k} {b : Btwxt} {base : Machine n k₀} {d : SimInput k} {s' : Sim n k}
    (he : M.toInput = .ok (d, s')) (hi : ofInput b base d = .ok M') (i : Fin k) :
    SameKind (M'.sim.cfg.src i) (M.sim.cfg.src i) := by
  obtain ⟨tank, configs, rs, _, ha, hc⟩ := round_trip he hi
  obtain ⟨q, hq, _, _, px, py, hsrc⟩ := ha.read i
  obtain ⟨s1, s2, hsb, hx, hrs⟩ := hc i
  have hcfg := hsb.cfg
  have hkind : (M'.sim.cfg.src i).kind = (rs i).cfg.kind := by rw [hsrc]; exact hq.kind
  have hsource := sourceToRs_ok hx.source
  rw [hcfg] at hsource
  unfold SameKind
  rw [hkind]
  rcases hsource with ⟨p, hp, hs, _⟩ | ⟨c, y, hp, _, _, _, hs⟩ | ⟨c, y, hp, _, _, _, hs, _⟩
  · have : (rs i).cfg.kind = .resistance p := by
      rw [hs] at hrs
      rcases hrs with h | ⟨x, r, h, h'⟩
      · simp only [readIntegratedSource, Except.ok.injEq] at h
        rw [← h]
        simp [readResistance, SourceCfg.blank]
      · simp only [readCentralSource, Except.ok.injEq] at h
        subst h
        have h2 : Except.ok (readResistance (M.srcInfo i).toRs (1000 * p)) = Except.ok (ε := Err) (rs i) := h'
        rw [← Except.ok.inj h2]
        simp [readResistance, SourceCfg.blank]
    rw [this, hp]
  · rw [hs] at hrs
    rcases hrs with h | ⟨x, r, h, h'⟩
    · simp [readIntegratedSource] at h
    · simp only [readCentralSource, readHeatPump] at h
      split at h
      · cases h
      · obtain ⟨z, _, h⟩ := (bind_ok_iff _ _ _).mp h
        simp only [pure, Except.pure, Except.ok.injEq] at h
        subst h
        simp only [readPorts, SourceCfg.blank] at h'
        obtain ⟨z1, _, h'⟩ := (bind_ok_iff _ _ _).mp h'
        obtain ⟨z2, _, h'⟩ := (bind_ok_iff _ _ _).mp h'
        simp only [pure, Except.pure, Except.ok.injEq] at h'
        rw [← h', hp]
        trivial
  · rw [hs] at hrs
    rcases hrs with h | ⟨x, r, h, h'⟩
    · simp only [readIntegratedSource, readCondenser] at h
      split at h
      · cases h
      · obtain ⟨z, _, h⟩ := (bind_ok_iff _ _ _).mp h
        simp only [pure, Except.pure, Except.ok.injEq] at h
        rw [← h, hp]
        trivial
    · simp [readCentralSource] at h

/-- **C68.** Exporting a simulator and importing the description: the heat sources have the same names in the
same order, the same links, the same kinds and element powers, and heat every node by the same share. Links
are names in the description, so names must be different (`C68_equal_names_confused`). -/
theorem C68_sources (M M' : Machine n k) (b : Btwxt) (base : Machine n k₀) (d : SimInput k) (s' : Sim n k)
    (hnames : Function.Injective M.name) (he : M.toInput = .ok (d, s')) (hi : ofInput b base d = .ok M') (i : Fin k) :
    M'.name i = M.name i ∧
      (M'.sim.cfg.src i).backup = (M.sim.cfg.src i).backup ∧
      (M'.sim.cfg.src i).followedBy = (M.sim.cfg.src i).followedBy ∧
      (M'.sim.cfg.src i).companion = (M.sim.cfg.src i).companion ∧
      SameKind (M'.sim.cfg.src i) (M.sim.cfg.src i) ∧
      SameHeatShares (M'.sim.cfg.src i).heatDist (M.sim.cfg.src i).heatDist := by
  obtain ⟨tank, configs, rs, _, ha, hc⟩ := round_trip he hi
  have hid : ∀ i, (configs i).id = some (M.name i) := fun i => by
    obtain ⟨_, _, _, h, _⟩ := hc i; exact h.id
  obtain ⟨q, hq, _, _, px, py, hsrc⟩ := ha.read i
  obtain ⟨s1, s2, hsb, hx, hrs⟩ := hc i
  have hlink : ∀ l : Option (Fin k),
      (l.map M.name).map (lookupId configs · (Nat.lt_of_le_of_lt (Nat.zero_le _) i.isLt)) = l := by
    intro l
    cases l with
    | none => rfl
    | some j => simp [lookupId_eq hnames hid]
  have hcfg := hsb.cfg
  refine ⟨?_, ?_, ?_, ?_, ?_, ?_⟩
  · have h := hq.name
    rw [hid] at h
    exact h
  · rw [hsrc, hq.backup, hx.backup, hlink, hcfg]
  · rw [hsrc, hq.followedBy, hx.followedBy, hlink, hcfg]
  · rw [hsrc, hq.companion, hx.companion, hlink, hcfg]
  · exact sameKind he hi i
  · obtain ⟨r, hr, hr'⟩ := hx.dist
    have h := hq.heatDist
    rw [hr'] at h
    rw [hcfg] at hr
    have h2 : (M'.sim.cfg.src i).heatDist = WDist.ofRs r := by rw [hsrc]; exact h
    rw [h2]
    exact WDist.same_of_toRs hr

/-- **C68.** Logics on temperatures come back as logics that decide the same. -/
theorem C68_logics (M M' : Machine n k) (b : Btwxt) (base : Machine n k₀) (d : SimInput k) (s' : Sim n k)
    (he : M.toInput = .ok (d, s')) (hi : ofInput b base d = .ok M') (i : Fin k) :
    ((∀ l ∈ (M.sim.cfg.src i).turnOn, OnTemperature l) →
      List.Forall₂ SameLogic (M'.sim.cfg.src i).turnOn (M.sim.cfg.src i).turnOn) ∧
    ((∀ l ∈ (M.sim.cfg.src i).shutOff, OnTemperature l) →
      List.Forall₂ SameLogic (M'.sim.cfg.src i).shutOff (M.sim.cfg.src i).shutOff) ∧
    ((∀ l ∈ (M.sim.cfg.src i).standby, OnTemperature l) →
      Option.Rel SameLogic (M'.sim.cfg.src i).standby (M.sim.cfg.src i).standby) := by
  obtain ⟨tank, configs, rs, _, ha, hc⟩ := round_trip he hi
  obtain ⟨q, hq, _, _, px, py, hsrc⟩ := ha.read i
  obtain ⟨s1, s2, hsb, hx, _⟩ := hc i
  have hcfg := hsb.cfg
  rw [hsrc, ← hcfg]
  refine ⟨fun ht => ?_, fun ht => ?_, fun ht => ?_⟩
  · exact Logic.list_round_trip hx.turnOn hq.turnOn ht
  · exact Logic.list_round_trip hx.shutOff hq.shutOff ht
  · obtain ⟨z, hz, e⟩ := hq.standby
    simp only
    rw [e]
    exact Logic.option_round_trip hx.standby hz ht

/-- **C68.** The priority heat source comes back, if there is at most one and names are different; if there is
none, no heat source may be nameless (`C68_nameless_becomes_priority`). -/
theorem C68_priority (M M' : Machine n k) (b : Btwxt) (base : Machine n k₀) (d : SimInput k) (s' : Sim n k)
    (hnames : Function.Injective M.name)
    (hone : ∀ i j, (M.sim.cfg.src i).isVIP = true → (M.sim.cfg.src j).isVIP = true → i = j)
    (hnone : (∀ i, (M.sim.cfg.src i).isVIP = false) → ∀ i, M.name i ≠ "")
    (he : M.toInput = .ok (d, s')) (hi : ofInput b base d = .ok M') (i : Fin k) :
    (M'.sim.cfg.src i).isVIP = (M.sim.cfg.src i).isVIP := by
  obtain ⟨tank, configs, rs, _, ha, hc⟩ := round_trip he hi
  obtain ⟨q, hq, _, _, px, py, hsrc⟩ := ha.read i
  have hname : M'.name i = M.name i := (C68_sources M M' b base d s' hnames he hi i).1
  rw [hsrc]
  simp only
  rw [hq.isVIP]
  simp only [hname]
  unfold primaryName
  by_cases hv : ∃ v, (M.sim.cfg.src v).isVIP = true
  · obtain ⟨v, hv⟩ := hv
    have hf : ((List.finRange k).filter fun i => (M.sim.cfg.src i).isVIP) = [v] := by
      refine List.perm_singleton.mp ?_
      rw [List.perm_ext_iff_of_nodup ((List.nodup_finRange k).filter _) (List.nodup_singleton v)]
      intro j
      simp only [List.mem_filter, List.mem_finRange, true_and, List.mem_singleton]
      exact ⟨fun h => hone j v h hv, fun h => h ▸ hv⟩
    simp only [hf, List.getLast?_singleton, Option.map_some, Option.getD_some, hnames.eq_iff]
    by_cases hiv : i = v
    · subst hiv; simp [hv]
    · have : (M.sim.cfg.src i).isVIP = false := by
        by_contra h
        exact hiv (hone i v (by simpa using h) hv)
      simp [hiv, this]
  · push Not at hv
    have hall : ∀ i, (M.sim.cfg.src i).isVIP = false := fun j => by simpa using hv j
    have hf : ((List.finRange k).filter fun i => (M.sim.cfg.src i).isVIP) = [] := by
      simp [hall]
    rw [hf]
    simp [hnone hall i, hall i]

/-- **C68.** Tank settings, setpoint, temperature depression and fixed volume come back too. -/
theorem C68_settings (M M' : Machine n k) (b : Btwxt) (base : Machine n k₀) (d : SimInput k) (s' : Sim n k)
    (hmix : M.sim.tank.mixesOnDraw = true → M.sim.tank.mixBelowFractionOnDraw > 0)
    (he : M.toInput = .ok (d, s')) (hi : ofInput b base d = .ok M') :
    SameTankSettings M'.sim.tank M.sim.tank ∧ M'.sim.tank.volumeFixed = M.sim.tank.volumeFixed ∧
      M'.sim.setpoint = M.sim.setpoint ∧ M'.sim.cfg.doTempDepression = M.sim.cfg.doTempDepression := by
  obtain ⟨tank, configs, rs, ht, ha, hc⟩ := round_trip he hi
  have hx := toInput_ok he
  refine ⟨?_, ?_, ?_, ?_⟩
  · rw [ha.tankEq, ht]
    exact C43_tank_settings M.sim.tank base.sim.tank M.tankInfo hmix
  · rw [ha.tankEq, hx.fixedVolume]; rfl
  · rw [ha.setpoint, hx.setpoint]; exact Logic.K_C _
  · rw [ha.depresses, hx.depresses]; rfl

/-! ## Examples and what goes wrong -/

/-- An interpolation library that finds a value in the grid, at grid points only. -/
def sampleBtwxt : Btwxt where
  accepts g := match g.tables with
    | [a, c] => decide (a.length = (points g.axes).length ∧ c.length = (points g.axes).length ∧
        (points g.axes).Nodup)
    | _ => false
  value _ _ g x := match g.tables with
    | [a, c] => (((points g.axes).zip (a.zip c)).lookup x).getD (0, 0)
    | _ => (0, 0)

/-- A heat pump with a grid over 2 × 3 temperatures, backed up by an element. -/
def sampleMachine : Machine 3 2 where
  sim := sampleReady
  name := !["compressor", "element"]
  srcInfo := fun _ => ⟨some "a heat source", none, none⟩
  grid := ![some ⟨[[5, 30], [10, 30, 60]], [[]]⟩, none]
  tankInfo := ⟨some "a tank", none, none⟩
  info := ⟨some "a heater", some "Acme", some "A1"⟩
  rating := ⟨none, none, some 200, none, none⟩
  useCOP := false
  style := .other

/-- The same with an external heat pump with a grid over 2 × 2 × 2 temperatures. -/
def sampleCentralMachine : Machine 3 2 where
  sim := sampleCentral
  name := !["compressor", "element"]
  srcInfo := fun _ => ⟨none, none, none⟩
  grid := ![some ⟨[[5, 30], [10, 60], [50, 65]], [[]]⟩, none]
  tankInfo := ⟨none, none, none⟩
  info := ⟨none, none, none⟩
  rating := ⟨none, none, none, none, none⟩
  useCOP := false
  style := .other

example : Function.Injective sampleMachine.name := by decide +kernel

/-- The samples can be exported and imported. -/
example : ∃ d, sampleMachine.toInput = .ok d ∧ ∃ M', ofInput sampleBtwxt sampleCentralMachine d.1 = .ok M' ∧
    M'.name 0 = "compressor" ∧ (M'.sim.cfg.src 0).backup = some 1 ∧ (M'.sim.cfg.src 0).turnOn.length = 1 := by
  decide +kernel

example : ∃ d, sampleCentralMachine.toInput = .ok d ∧
    ∃ M', ofInput sampleBtwxt sampleMachine d.1 = .ok M' ∧ M'.sim.cfg.compressorIndex = some 0 ∧
      M'.name 1 = "element" := by decide +kernel

/-- `C60_export_unchanged_partial` is about simulators such as the first sample. -/
example : ∀ i c, (sampleMachine.sim.cfg.src i).kind = .condenser c → c.configuration = .external →
    sampleMachine.grid i = none := by
  refine Fin.forall_fin_two.mpr ⟨fun c hc hx => ?_, fun c hc hx => ?_⟩
  · have : c = sampleCond := by
      have h : (sampleMachine.sim.cfg.src 0).kind = .condenser sampleCond := rfl
      rw [h] at hc
      cases hc
      rfl
    rw [this] at hx
    cases hx
  · rfl

/-- **C60 fails** for the second sample: its setpoint is 55 °C before and 65 °C after the export. -/
theorem C60_setpoint_overwritten : sampleCentralMachine.sim.setpoint = 55 ∧
    ∃ r, sampleCentralMachine.toInput = .ok r ∧ r.2.setpoint = 65 := by decide +kernel

/-- **C68 needs different names**: if both heat sources have the same name, the element's backup, which is
the first heat source, comes back as the element itself. -/
theorem C68_equal_names_confused :
    ∃ d, Machine.toInput { sampleMachine with
        name := fun _ => "heat source"
        sim := { sampleReady with cfg := { sampleReady.cfg with
          src := Function.update sampleReady.cfg.src 1 { sampleReady.cfg.src 1 with backup := some 0 } } } } = .ok d ∧
      ∃ M', ofInput sampleBtwxt sampleMachine d.1 = .ok M' ∧ (M'.sim.cfg.src 1).backup = some 1 := by
  decide +kernel

/-- **C68 needs names**: without a priority source, heat sources with empty names become priority sources. -/
theorem C68_nameless_becomes_priority :
    (sampleMachine.sim.cfg.src 1).isVIP = false ∧ (sampleMachine.sim.cfg.src 0).isVIP = false ∧
      ∃ d, Machine.toInput { sampleMachine with name := !["compressor", ""] } = .ok d ∧
        ∃ M', ofInput sampleBtwxt sampleMachine d.1 = .ok M' ∧ (M'.sim.cfg.src 1).isVIP = true := by
  decide +kernel

/-- **C68.** Of several priority sources only the last comes back as such. -/
theorem C68_first_priority_lost :
    ∃ d, Machine.toInput { sampleMachine with sim := { sampleReady with cfg := { sampleReady.cfg with
          src := fun i => { sampleReady.cfg.src i with isVIP := true } } } } = .ok d ∧
        ∃ M', ofInput sampleBtwxt sampleMachine d.1 = .ok M' ∧ (M'.sim.cfg.src 0).isVIP = false ∧
          (M'.sim.cfg.src 1).isVIP = true := by
  decide +kernel

end Machine

/-- **C68, descriptions from elsewhere.** A link to an identifier no heat source has is taken for a link to the first
heat source. -/
theorem C68_unknown_link_to_first (configs : Fin (k + 1) → RsConfig) (id : String)
    (h : ∀ i, (configs i).id.getD "" ≠ id) : lookupId configs id (Nat.succ_pos k) = 0 := by
  unfold lookupId
  rw [List.filter_eq_nil_iff.mpr (by simpa using h)]
  rfl

/-- In particular a heat source can become its own backup. -/
theorem C68_own_backup :
    ∃ d : SimInput 2 × Sim 3 2, Machine.toInput Machine.sampleMachine = .ok d ∧
      ∃ M' : Machine 3 2, Machine.ofInput Machine.sampleBtwxt Machine.sampleMachine
        { d.1 with system := match d.1.system with
          | .integrated x => .integrated { x with configs := fun i => { x.configs i with backup := some "missing" } }
          | .central x => .central x } = .ok M' ∧ (M'.sim.cfg.src 0).backup = some 0 := by
  decide +kernel

end HPWH
