import Verif.Lemmas.Import
import Verif.Spec.Export
import Verif.Props.Grid
import Verif.Props.ExportLogic

/-! # What becomes of a condenser through export and import -/

namespace HPWH

open Spec _root_.HPWH.Units

variable {n k k₀ : ℕ}

/-! ## Tables -/

theorem tabulate2_eq_map {α : Type} (f : ℚ → ℚ → α) (xs ys : List ℚ) :
    tabulate2 f xs ys = (tabulate2 Prod.mk xs ys).map fun p => f p.1 p.2 := by
  simp [tabulate2, List.map_flatMap, Function.comp_def]

theorem tabulate3_eq_map {α : Type} (f : ℚ → ℚ → ℚ → α) (xs ys zs : List ℚ) :
    tabulate3 f xs ys zs = (gridPoints xs ys zs).map fun p => f p.1 p.2.1 p.2.2 := by
  simp [tabulate3, gridPoints, List.map_flatMap, Function.comp_def]

theorem points_two (xs ys : List ℚ) : points [xs, ys] = (tabulate2 Prod.mk xs ys).map fun p => [p.1, p.2] := by
  simp [points, tabulate2, List.map_eq_flatMap, List.flatMap_assoc]

theorem points_three (xs ys zs : List ℚ) :
    points [xs, ys, zs] = (gridPoints xs ys zs).map fun p => [p.1, p.2.1, p.2.2] := by
  simp [points, gridPoints, List.map_eq_flatMap, List.flatMap_assoc]

theorem mem_tabulate2 {xs ys : List ℚ} {x y : ℚ} : (x, y) ∈ tabulate2 Prod.mk xs ys ↔ x ∈ xs ∧ y ∈ ys := by
  simp [tabulate2]

theorem mem_gridPoints {xs ys zs : List ℚ} {x y z : ℚ} :
    (x, y, z) ∈ gridPoints xs ys zs ↔ x ∈ xs ∧ y ∈ ys ∧ z ∈ zs := by
  simp [gridPoints]

theorem lookupValues_map {α : Type} {u : Bool} {f g : α → ℚ} {pts : List α} {r : List ℚ}
    (h : lookupValues u (pts.map f) (pts.map g) = .ok r) :
    r = pts.map (fun p => if u then g p / f p else g p) ∧ (u = true → ∀ p ∈ pts, f p ≠ 0) := by
  induction pts generalizing r with
  | nil =>
    simp only [List.map_nil, lookupValues, Except.ok.injEq] at h
    subst h
    simp
  | cons p ps ih =>
    simp only [List.map_cons, lookupValues] at h
    by_cases h0 : u = true ∧ f p = 0
    · rw [if_pos h0] at h; cases h
    rw [if_neg h0] at h
    obtain ⟨r', hr', h⟩ := (bind_ok_iff _ _ _).mp h
    simp only [pure, Except.pure, Except.ok.injEq] at h
    subst h
    obtain ⟨h1, h2⟩ := ih hr'
    refine ⟨by rw [h1]; rfl, fun hu => ?_⟩
    intro q hq
    rcases List.mem_cons.mp hq with rfl | hq
    · exact fun e => h0 ⟨hu, e⟩
    · exact h2 hu q hq

theorem gridOfRs_ok {b : Btwxt} {u : Bool} {m : RsMap} {g : PerfGrid ℚ} {lo hi : ℚ}
    (h : gridOfRs b u m = .ok (g, lo, hi)) :
    ∃ env water t, m.env = some env ∧ m.water = some water ∧
      g.axes = env.map K_TO_C :: water.map K_TO_C :: (m.leaving.map (·.map K_TO_C)).toList ∧
      g.tables = [m.inputPower, t] ∧ lookupValues u m.inputPower m.heatingCapacity = .ok t ∧
      b.accepts g = true ∧ (env.map K_TO_C).head? = some lo ∧ (env.map K_TO_C).getLast? = some hi := by
  unfold gridOfRs at h
  split at h
  next env water he hw =>
    split at h
    · cases h
    next e es hes =>
      obtain ⟨t, ht, h⟩ := (bind_ok_iff _ _ _).mp h
      simp only at h
      split_ifs at h with ha
      simp only [pure, Except.pure, Except.ok.injEq, Prod.mk.injEq] at h
      obtain ⟨rfl, rfl, rfl⟩ := h
      refine ⟨env, water, t, he, hw, by rw [hes], rfl, ht, ha, by rw [hes]; rfl, ?_⟩
      rw [hes, List.getLast?_eq_getLast_of_ne_nil]
  · cases h
  · cases h

/-! ## Condensers -/

namespace Machine

/-- Exporting an integrated system does not touch the simulator. -/
theorem configLoop_integrated {M : Machine n k} {l : List (Fin k)} (hl : l.Nodup) {cs cs' : Fin k → RsConfig}
    {s s' : Sim n k} (hs : compressorExternal s = false) (h : M.configLoop l cs s = .ok (cs', s')) :
    s' = s ∧ (∀ i, i ∉ l → cs' i = cs i) ∧ ∀ i ∈ l, M.Exported s s i (cs' i) := by
  induction l generalizing cs with
  | nil =>
    simp only [configLoop, Except.ok.injEq, Prod.mk.injEq] at h
    obtain ⟨rfl, rfl⟩ := h
    exact ⟨rfl, fun _ _ => rfl, fun i hi => by cases hi⟩
  | cons j js ih =>
    simp only [configLoop] at h
    obtain ⟨r, hr, h⟩ := (bind_ok_iff _ _ _).mp h
    have hx := configToRs_ok (c := r.1) (s' := r.2) hr
    have e : r.2 = s := by
      rcases sourceToRs_ok hx.source with ⟨p, _, _, e⟩ | ⟨c, y, _, _, e, _⟩ | ⟨c, y, _, _, _, _, _, e⟩
      · exact e
      · rw [hs] at e; cases e
      · exact e
    rw [e] at h hx
    obtain ⟨hj, hjs⟩ := List.nodup_cons.mp hl
    obtain ⟨h1, h2, h3⟩ := ih hjs h
    refine ⟨h1, ?_, ?_⟩
    · intro i hi
      rw [List.mem_cons, not_or] at hi
      rw [h2 i hi.2, Function.update_of_ne hi.1]
    · intro i hi
      by_cases hij : i = j
      · subst hij
        rw [h2 i hj, Function.update_self]
        exact hx
      · rcases List.mem_cons.mp hi with e | e
        · exact absurd e hij
        · exact h3 i e

/-- The condenser an integrated condenser comes back as. -/
def cameBackIntegrated (c : CondCfg) (eval : ℚ → ℚ → ℚ → Perf) : CondCfg :=
  { CondCfg.blank with
    configuration := c.configuration
    maxSetpoint := c.maxSetpoint
    hysteresis := c.hysteresis
    standbyPower_kW := if c.standbyPower_kW > 0 then c.standbyPower_kW else 0
    evaluate := eval }

/-- The condenser an external condenser comes back as; `j` is the compressor's. -/
def cameBackExternal (c j : CondCfg) (eval : ℚ → ℚ → ℚ → Perf) : CondCfg :=
  CondCfg.withDefrost
    { CondCfg.blank with
      configuration := .external
      isMultipass := j.isMultipass
      mpFlowRate_LPS := if j.isMultipass then j.mpFlowRate_LPS else 0
      coldSideOffset := if j.extraPumpPower_W > 0 then j.coldSideOffset else 0
      hotSideOffset := if j.extraPumpPower_W > 0 then j.hotSideOffset else 0
      extraPumpPower_W := if j.extraPumpPower_W > 0 then j.extraPumpPower_W else 0
      maxSetpoint := c.maxSetpoint
      hysteresis := c.hysteresis
      standbyPower_kW := if c.standbyPower_kW > 0 then c.standbyPower_kW else 0
      resDefrostPower_kW := if c.resDefrostPower_kW > 0 then c.resDefrostPower_kW else 0
      resDefrostLift_dF := if c.resDefrostPower_kW > 0 then c.resDefrostLift_dF else 0
      resDefrostOnBelow_F := if c.resDefrostPower_kW > 0 then c.resDefrostOnBelow_F else -999
      maxOutT := if c.maxOutAirT > -(27315 / 100) then c.maxOutT else 100
      maxOutAirT := if c.maxOutAirT > -(27315 / 100) then c.maxOutAirT else -(27315 / 100)
      evaluate := eval } (some c.doDefrost)

theorem standby_back (x : ℚ) :
    ((if x > 0 then some (1000 * x) else none : Option ℚ).map W_TO_KW).getD 0 = if x > 0 then x else 0 := by
  split_ifs
  · simp only [Option.map_some, Option.getD_some, W_TO_KW]; ring
  · rfl

theorem readCondenser_ok {b : Btwxt} {style : GridStyle} {u : Bool} {y : RsCondenser} {m : RsMap}
    {r : ReadSource n k} (hm : y.map = some m) (h : readCondenser b style u y = .ok r) :
    ∃ g lo hi, gridOfRs b u { m with leaving := none } = .ok (g, lo, hi) ∧ r.grid = some g ∧
      r.info = Info.blank.ofRs y.info ∧
      r.cfg = { SourceCfg.blank (.condenser (CondCfg.withDefrost
        { CondCfg.blank with
          configuration := match y.coil with
            | .submerged => .submerged
            | .wrapped => .wrapped
            | .unknown => .wrapped
          maxSetpoint := (y.maxRefrigerantT.map K_TO_C).getD 100
          hysteresis := y.hysteresis.getD 0
          standbyPower_kW := (y.standbyPower.map W_TO_KW).getD 0
          evaluate := gridPerf b style true u g 0 } y.useDefrost)) with minT := lo, maxT := hi } := by
  unfold readCondenser at h
  rw [hm] at h
  simp only at h
  obtain ⟨z, hz, h⟩ := (bind_ok_iff _ _ _).mp h
  simp only [pure, Except.pure, Except.ok.injEq] at h
  subst h
  exact ⟨z.1, z.2.1, z.2.2, hz, rfl, rfl, rfl⟩

theorem readHeatPump_ok {b : Btwxt} {style : GridStyle} {u : Bool} {flow : Option ℚ} {ex : Option RsExchanger}
    {y : RsHeatPump} {m : RsMap} {r : ReadSource n k} (hm : y.map = some m)
    (h : readHeatPump b style u flow ex y = .ok r) :
    ∃ g lo hi, gridOfRs b u m = .ok (g, lo, hi) ∧ r.grid = some g ∧ r.info = Info.blank.ofRs y.info ∧
      r.cfg = { SourceCfg.blank (.condenser (CondCfg.withDefrost
        { CondCfg.blank with
          configuration := .external
          isMultipass := flow.isSome
          mpFlowRate_LPS := (flow.map (1000 * ·)).getD 0
          coldSideOffset := (ex.map (·.coldOffset)).getD 0
          hotSideOffset := (ex.map (·.hotOffset)).getD 0
          extraPumpPower_W := (ex.map (·.extraPumpPower)).getD 0
          maxSetpoint := (y.maxRefrigerantT.map K_TO_C).getD 100
          hysteresis := y.hysteresis.getD 0
          standbyPower_kW := (y.standbyPower.map W_TO_KW).getD 0
          resDefrostPower_kW := (y.resDefrost.map fun r => W_TO_KW r.inputPower).getD 0
          resDefrostLift_dF := (y.resDefrost.map fun r => dC_TO_dF r.lift).getD 0
          resDefrostOnBelow_F := (y.resDefrost.map fun r => K_TO_F r.activation).getD (-999)
          maxOutT := (y.lowLimit.map fun r => K_TO_C r.maxSetpoint).getD 100
          maxOutAirT := (y.lowLimit.map fun r => K_TO_C r.threshold).getD (-(27315 / 100))
          evaluate := gridPerf b style false u g ((ex.map (·.hotOffset)).getD 0) } y.useDefrost))
        with minT := lo, maxT := hi } := by
  unfold readHeatPump at h
  rw [hm] at h
  simp only at h
  obtain ⟨z, hz, h⟩ := (bind_ok_iff _ _ _).mp h
  simp only [pure, Except.pure, Except.ok.injEq] at h
  subst h
  exact ⟨z.1, z.2.1, z.2.2, hz, rfl, rfl, rfl⟩

theorem integratedMap_leaving {eval : ℚ → ℚ → Perf} {lo hi mx : ℚ} {u : Bool} {g : Option (PerfGrid ℚ)}
    {m : RsMap} (h : integratedMap eval lo hi mx u g = .ok m) : m.leaving = none := by
  unfold integratedMap at h
  split at h
  · split at h
    · simp only [Except.ok.injEq] at h
      rw [← h]
    · cases h
  · obtain ⟨z, hz, h⟩ := (bind_ok_iff _ _ _).mp h
    simp only [pure, Except.pure, Except.ok.injEq] at h
    rw [← h]

/-- An integrated condenser: its description and what it comes back as. -/
theorem integrated_condenser {M M' : Machine n k} {b : Btwxt} {base : Machine n k₀} {d : SimInput k}
    {s' : Sim n k} (he : M.toInput = .ok (d, s')) (hi : ofInput b base d = .ok M') {i : Fin k} {c : CondCfg}
    (hk : (M.sim.cfg.src i).kind = .condenser c) (hc : c.configuration ≠ .external) :
    ∃ x y m g lo up, d.system = .integrated x ∧ (x.configs i).source = .condenser y ∧ y.map = some m ∧
      integratedMap (c.evaluate M.sim.setpoint) (M.sim.cfg.src i).minT (M.sim.cfg.src i).maxT c.maxSetpoint
        M.useCOP (M.grid i) = .ok m ∧
      gridOfRs b M.useCOP m = .ok (g, lo, up) ∧
      (M'.sim.cfg.src i).kind
        = .condenser (cameBackIntegrated c (gridPerf b base.style true M.useCOP g 0)) ∧
      (M'.sim.cfg.src i).minT = lo ∧ (M'.sim.cfg.src i).maxT = up ∧ (M'.sim.cfg.src i).airflowFreedom = 1 ∧
      M'.grid i = some g ∧ M'.srcInfo i = Info.blank.ofRs (M.srcInfo i).toRs := by
  have hx := toInput_ok he
  -- the system is integrated
  have key : ∀ (s1 s2 : Sim n k) (cf : RsConfig), M.sim.SameBut s1 → M.Exported s1 s2 i cf →
      compressorExternal s1 = false ∧ s1.cfg.compressorIndex ≠ none ∧
      ∃ y, condenserToRs c (M.srcInfo i) (s1.cfg.src i).minT (s1.cfg.src i).maxT M.useCOP (M.grid i) s1.setpoint
        = .ok y ∧ cf.source = .condenser y := by
    intro s1 s2 cf hsb hcf
    have hso := hcf.source
    have hs := sourceToRs_ok hso
    rw [hsb.cfg, hk] at hs
    have hne : s1.cfg.compressorIndex ≠ none := by
      intro h0
      unfold sourceToRs at hso
      simp only at hso
      rw [hsb.cfg] at h0
      rw [hsb.cfg, hk] at hso
      simp only [if_pos h0] at hso
      cases hso
    rcases hs with ⟨p, hp, _⟩ | ⟨c', y, hp, hcc, _⟩ | ⟨c', y, hp, hcc, hext, hy, hsrc, _⟩
    · cases hp
    · cases hp; exact absurd hcc hc
    · cases hp
      exact ⟨hext, hne, y, by rw [hsb.cfg]; exact hy, hsrc⟩
  have hext : ∀ s1 : Sim n k, M.sim.SameBut s1 → compressorExternal s1 = compressorExternal M.sim := by
    intro s1 hsb
    unfold compressorExternal
    rw [hsb.cfg]
  rcases hx.system with ⟨x, hsys, hce, _, _, ht, hp, hl⟩ | ⟨x, j, cj, hsys, hce, _, _, hl, _⟩
  · obtain ⟨-, -, h3⟩ := configLoop_integrated (List.nodup_finRange k) hce hl
    obtain ⟨_, hne, y, hy, hsrc⟩ := key M.sim M.sim _ (.refl _) (h3 i (List.mem_finRange i))
    have hcop : d.interpolateCop.getD false = M.useCOP := by
      rw [hx.cop, if_pos (Option.isSome_iff_ne_none.mpr hne)]; rfl
    obtain ⟨rs, ha, hb, _⟩ := ofInput_integrated hsys hi
    have hri := hb i
    rw [hsrc, hcop] at hri
    unfold condenserToRs at hy
    obtain ⟨m, hm, hy⟩ := (bind_ok_iff _ _ _).mp hy
    simp only [pure, Except.pure, Except.ok.injEq] at hy
    have hym : y.map = some m := by rw [← hy]
    obtain ⟨g, lo, up, hg, hrg, hri', hrc⟩ := readCondenser_ok hym hri
    have hml : { m with leaving := none } = m := by
      have := integratedMap_leaving hm
      cases m
      simp_all
    rw [hml] at hg
    obtain ⟨q, hq, hqi, hqg, px, py, hsrc'⟩ := ha.read i
    have hkind : (M'.sim.cfg.src i).kind = (rs i).cfg.kind := by rw [hsrc']; exact hq.kind
    have hmin : (M'.sim.cfg.src i).minT = (rs i).cfg.minT := by rw [hsrc']; exact hq.minT
    have hmax : (M'.sim.cfg.src i).maxT = (rs i).cfg.maxT := by rw [hsrc']; exact hq.maxT
    have hair : (M'.sim.cfg.src i).airflowFreedom = (rs i).cfg.airflowFreedom := by rw [hsrc']; exact hq.airflow
    refine ⟨x, y, m, g, lo, up, hsys, hsrc, hym, hm, hg, ?_, ?_, ?_, ?_, ?_, ?_⟩
    · rw [hkind, hrc]
      simp only [SourceCfg.blank, SourceKind.condenser.injEq]
      have hd : y.useDefrost = none := by rw [← hy]
      rw [hd]
      simp only [CondCfg.withDefrost, reduceCtorEq, if_false, cameBackIntegrated]
      have h1 : y.maxRefrigerantT = some (C_TO_K c.maxSetpoint) := by rw [← hy]
      have h2 : y.hysteresis = some c.hysteresis := by rw [← hy]
      have h3 : y.standbyPower = if c.standbyPower_kW > 0 then some (1000 * c.standbyPower_kW) else none := by
        rw [← hy]
      rw [h1, h2, h3, standby_back]
      simp only [Option.map_some, Option.getD_some, Logic.K_C]
      congr 1
      rw [← hy]
      simp only
      cases hcc : c.configuration with
      | submerged => rfl
      | wrapped => rfl
      | external => exact absurd hcc hc
    · rw [hmin, hrc]
    · rw [hmax, hrc]
    · rw [hair, hrc]; rfl
    · rw [hqg, hq.grid, hrg]
    · rw [hqi, hq.info, hri', ← hy]
  · obtain ⟨s1, s2, hsb, hcf⟩ := (configs_ok hl).2 i
    obtain ⟨h1, _⟩ := key s1 s2 _ hsb hcf
    rw [hext s1 hsb, hce] at h1
    cases h1

/-- An external condenser: its description and what it comes back as. The export takes place in a
simulator `s1` that may differ from the original one in its setpoint. -/
theorem external_condenser {M M' : Machine n k} {b : Btwxt} {base : Machine n k₀} {d : SimInput k}
    {s' : Sim n k} (he : M.toInput = .ok (d, s')) (hi : ofInput b base d = .ok M') {i : Fin k} {c : CondCfg}
    (hk : (M.sim.cfg.src i).kind = .condenser c) (hc : c.configuration = .external) :
    ∃ x y m g lo up s1 s2 j cj, d.system = .central x ∧ (x.configs i).source = .heatPump y ∧ y.map = some m ∧
      M.sim.SameBut s1 ∧
      externalMap s1 c (M.sim.cfg.src i).minT (M.sim.cfg.src i).maxT (M.grid i) = .ok (m, s2) ∧
      M.sim.cfg.compressorIndex = some j ∧ (M.sim.cfg.src j).kind = .condenser cj ∧
      gridOfRs b M.useCOP m = .ok (g, lo, up) ∧
      (M'.sim.cfg.src i).kind = .condenser (cameBackExternal c cj (gridPerf b base.style false M.useCOP g
        (if cj.extraPumpPower_W > 0 then cj.hotSideOffset else 0))) ∧
      (M'.sim.cfg.src i).minT = lo ∧ (M'.sim.cfg.src i).maxT = up ∧ (M'.sim.cfg.src i).airflowFreedom = 1 ∧
      M'.grid i = some g ∧ M'.srcInfo i = Info.blank.ofRs (M.srcInfo i).toRs := by
  have hx := toInput_ok he
  have key : ∀ (s1 s2 : Sim n k) (cf : RsConfig), M.sim.SameBut s1 → M.Exported s1 s2 i cf →
      compressorExternal s1 = true ∧
      ∃ y, heatPumpToRs s1 c (M.srcInfo i) (s1.cfg.src i).minT (s1.cfg.src i).maxT (M.grid i)
        = .ok (y, s2) ∧ cf.source = .heatPump y := by
    intro s1 s2 cf hsb hcf
    have hs := sourceToRs_ok hcf.source
    rw [hsb.cfg, hk] at hs
    rcases hs with ⟨p, hp, _⟩ | ⟨c', y, hp, hcc, hext, hy, hsrc⟩ | ⟨c', y, hp, hcc, _⟩
    · cases hp
    · cases hp
      exact ⟨hext, y, by rw [hsb.cfg]; exact hy, hsrc⟩
    · cases hp; exact absurd hc hcc
  rcases hx.system with ⟨x, hsys, hce, _, _, ht, hp, hl⟩ | ⟨x, j, cj, hsys, hce, _, _, hl, hj, hkj, _, _, hflow, hex⟩
  · obtain ⟨s1, s2, hsb, hcf⟩ := (configs_ok hl).2 i
    obtain ⟨h1, _⟩ := key s1 s2 _ hsb hcf
    have : compressorExternal s1 = compressorExternal M.sim := by unfold compressorExternal; rw [hsb.cfg]
    rw [this, hce] at h1
    cases h1
  · obtain ⟨s1, s2, hsb, hcf⟩ := (configs_ok hl).2 i
    obtain ⟨_, y, hy, hsrc⟩ := key s1 s2 _ hsb hcf
    have hcop : d.interpolateCop.getD false = M.useCOP := by
      rw [hx.cop, hj]; rfl
    obtain ⟨rs, ha, hb, _⟩ := ofInput_central hsys hi
    obtain ⟨r, hri, hrp⟩ := hb i
    rw [hsrc, hcop] at hri
    obtain ⟨m, hm, hym, hyi, hymax, hyh, hyd, hys, hyr, hyl⟩ := heatPumpToRs_ok hy
    obtain ⟨g, lo, up, hg, hrg, hri', hrc⟩ := readHeatPump_ok hym hri
    -- reading the ports changes nothing else
    have hport : (rs i).cfg.kind = r.cfg.kind ∧ (rs i).cfg.minT = r.cfg.minT ∧ (rs i).cfg.maxT = r.cfg.maxT ∧
        (rs i).cfg.airflowFreedom = r.cfg.airflowFreedom ∧ (rs i).info = r.info ∧ (rs i).grid = r.grid := by
      unfold readPorts at hrp
      split at hrp
      · rw [Except.ok.injEq] at hrp; rw [← hrp]; exact ⟨rfl, rfl, rfl, rfl, rfl, rfl⟩
      · obtain ⟨_, _, hrp⟩ := (bind_ok_iff _ _ _).mp hrp
        obtain ⟨_, _, hrp⟩ := (bind_ok_iff _ _ _).mp hrp
        simp only [pure, Except.pure, Except.ok.injEq] at hrp
        rw [← hrp]
        exact ⟨rfl, rfl, rfl, rfl, rfl, rfl⟩
    obtain ⟨hpk, hp1, hp2, hp3, hp4, hp5⟩ := hport
    obtain ⟨q, hq, hqi, hqg, px, py, hsrc'⟩ := ha.read i
    have hkind : (M'.sim.cfg.src i).kind = r.cfg.kind := by rw [hsrc', ← hpk]; exact hq.kind
    have hmin : (M'.sim.cfg.src i).minT = r.cfg.minT := by rw [hsrc', ← hp1]; exact hq.minT
    have hmax : (M'.sim.cfg.src i).maxT = r.cfg.maxT := by rw [hsrc', ← hp2]; exact hq.maxT
    have hair : (M'.sim.cfg.src i).airflowFreedom = r.cfg.airflowFreedom := by rw [hsrc', ← hp3]; exact hq.airflow
    refine ⟨x, y, m, g, lo, up, s1, s2, j, cj, hsys, hsrc, hym, hsb, by rw [hsb.cfg] at hm; exact hm, hj, hkj, hg,
      ?_, by rw [hmin, hrc], by rw [hmax, hrc], by rw [hair, hrc]; rfl, by rw [hqg, hq.grid, hp5, hrg],
      by rw [hqi, hq.info, hp4, hri', hyi]⟩
    rw [hkind, hrc]
    simp only [SourceCfg.blank, SourceKind.condenser.injEq]
    unfold cameBackExternal
    rw [hyd, hymax, hyh, hys, hyr, hyl, hflow, hex, standby_back]
    simp only [Option.map_some, Option.getD_some, Logic.K_C]
    congr 1
    have e1 : ∀ x : ℚ, 1000 * (x / 1000) = x := fun x => by ring
    have e2 : ∀ x : ℚ, W_TO_KW (KW_TO_W x) = x := fun x => by unfold W_TO_KW KW_TO_W; ring
    have e3 : ∀ x : ℚ, dC_TO_dF (dF_TO_dC x) = x := fun x => by unfold dC_TO_dF dF_TO_dC FperC; ring
    have e4 : ∀ x : ℚ, K_TO_F (F_TO_K x) = x := fun x => by
      unfold K_TO_F F_TO_K C_TO_F F_TO_C K_TO_C C_TO_K FperC; ring
    clear ha hb hri hrp hrc hsrc' hq hg key hl hcf hy hm hx he hi hkind hmin hmax hair
    split_ifs <;> simp only [Option.map_some, Option.map_none, Option.getD_some, Option.getD_none,
      Option.isSome_some, Option.isSome_none, Logic.K_C, *]

end Machine

end HPWH
