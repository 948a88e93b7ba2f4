import Verif.Lemmas.ExportCondenser
import Verif.Props.ExportSources
import Verif.Model.Poly

/-! # C69, C70: condensers after export and import -/

namespace HPWH

open Spec _root_.HPWH.Units

variable {n k k₀ : ℕ}

/-! ## Axes -/

theorem head_of_least {l : List ℚ} (hs : l.Pairwise (· < ·)) {lo : ℚ} (hm : lo ∈ l) (hl : ∀ x ∈ l, lo ≤ x) :
    l.head? = some lo := by
  cases l with
  | nil => cases hm
  | cons x xs =>
    rcases List.mem_cons.mp hm with rfl | h
    · rfl
    · have := (List.pairwise_cons.mp hs).1 lo h
      exact absurd (hl x (by simp)) (not_le.mpr this)

theorem last_of_greatest {l : List ℚ} (hs : l.Pairwise (· < ·)) {up : ℚ} (hm : up ∈ l) (hl : ∀ x ∈ l, x ≤ up) :
    l.getLast? = some up := by
  induction l with
  | nil => cases hm
  | cons x xs ih =>
    by_cases hx : xs = []
    · subst hx
      simp only [List.mem_singleton] at hm
      simp [hm]
    · have h1 := (List.pairwise_cons.mp hs)
      have hup : up ∈ xs := by
        rcases List.mem_cons.mp hm with rfl | h
        · obtain ⟨y, hy⟩ := List.exists_mem_of_ne_nil xs hx
          exact absurd (hl y (by simp [hy])) (not_le.mpr (h1.1 y hy))
        · exact h
      rw [List.getLast?_cons, ih h1.2 hup fun y hy => hl y (by simp [hy])]
      rfl

/-- Ends of a trimmed axis. -/
theorem trim_ends {v : List ℚ} {lo up : ℚ} (h : lo ≤ up) (h1 : lo ∈ v) (h2 : up ∈ v) :
    (trimGridVector v lo up).head? = some lo ∧ (trimGridVector v lo up).getLast? = some up := by
  obtain ⟨hs, hm⟩ := C47_trim v lo up
  exact ⟨head_of_least hs ((hm lo).mpr ⟨h1, le_rfl, h⟩) fun x hx => ((hm x).mp hx).2.1,
    last_of_greatest hs ((hm up).mpr ⟨h2, h, le_rfl⟩) fun x hx => ((hm x).mp hx).2.2⟩

theorem map_K_C (l : List ℚ) : (l.map C_TO_K).map K_TO_C = l := by
  rw [List.map_map]
  exact List.map_id'' Logic.K_C l

theorem C_K (x : ℚ) : C_TO_K (K_TO_C x) = x := by unfold K_TO_C C_TO_K; ring

theorem map_C_K (l : List ℚ) : (l.map K_TO_C).map C_TO_K = l := by
  rw [List.map_map]
  exact List.map_id'' C_K l

/-! ## The maps -/

/-- What the axes of an exported map are: all the temperatures wanted between the limits, in order. -/
structure Axes (g : Option (PerfGrid ℚ)) (lo up : ℚ) (env water : List ℚ) : Prop where
  env : ∃ v, env = trimGridVector v lo up ∧ lo ∈ v ∧ up ∈ v ∧ ∀ x, g = some x → ∀ a ∈ x.axes.headD [], a ∈ v
  water : ∀ x, g = some x → x.axes[1]? = some water

theorem integratedMap_tables {eval : ℚ → ℚ → Perf} {lo up mx : ℚ} {u : Bool} {g : Option (PerfGrid ℚ)}
    {m : RsMap} (h : integratedMap eval lo up mx u g = .ok m) :
    ∃ env water, m.env = some (env.map C_TO_K) ∧ m.water = some (water.map C_TO_K) ∧ m.leaving = none ∧
      m.inputPower = tabulate2 (fun e w => (eval e w).inputPower_W) env water ∧
      m.heatingCapacity = tabulate2 (fun e w => (eval e w).outputPower_W) env water ∧
      Axes g lo up env water := by
  unfold integratedMap at h
  split at h
  next g' =>
    split at h
    next a0 a1 rest hax =>
      simp only [Except.ok.injEq] at h
      rw [← h]
      refine ⟨_, _, rfl, rfl, rfl, ?_, ?_, ⟨_, rfl, by simp, by simp, ?_⟩, ?_⟩
      · simp [tabulate2, List.map_flatMap, Function.comp_def]
      · simp [tabulate2, List.map_flatMap, Function.comp_def]
      · intro x hx a ha
        cases hx
        rw [hax] at ha
        simp only [List.headD_cons] at ha
        simp [ha]
      · intro x hx
        cases hx
        rw [hax]
        rfl
    · cases h
  · obtain ⟨z, hz, h⟩ := (bind_ok_iff _ _ _).mp h
    simp only [pure, Except.pure, Except.ok.injEq] at h
    rw [← h]
    refine ⟨_, _, rfl, rfl, rfl, ?_, ?_, ⟨_, rfl, by simp, by simp, fun x hx => by cases hx⟩,
      fun x hx => by cases hx⟩
    · simp [tabulate2, List.map_flatMap, Function.comp_def, Logic.K_C]
    · simp [tabulate2, List.map_flatMap, Function.comp_def, Logic.K_C]

theorem externalMap_tables {s s' : Sim n k} {c : CondCfg} {lo up : ℚ} {g : Option (PerfGrid ℚ)} {m : RsMap}
    (h : externalMap s c lo up g = .ok (m, s')) :
    ∃ env water leaving, m.env = some (env.map C_TO_K) ∧ m.water = some (water.map C_TO_K) ∧
      m.leaving = some (leaving.map C_TO_K) ∧
      m.inputPower = tabulate3 (fun e w o => (c.evaluate (o - c.hotSideOffset) e w).inputPower_W) env water leaving ∧
      m.heatingCapacity = tabulate3 (fun e w o => if g = none then
          (c.evaluate (o - c.hotSideOffset) e w).cop * (c.evaluate (o - c.hotSideOffset) e w).inputPower_W
        else (c.evaluate (o - c.hotSideOffset) e w).outputPower_W) env water leaving ∧
      Axes g lo up env water ∧ ∀ x, g = some x → x.axes[2]? = some leaving := by
  unfold externalMap at h
  split at h
  next g' =>
    split at h
    next a0 a1 a2 rest hax =>
      simp only [Except.ok.injEq, Prod.mk.injEq] at h
      rw [← h.1]
      refine ⟨_, _, _, rfl, rfl, rfl, ?_, ?_, ⟨⟨_, rfl, by simp, by simp, ?_⟩, ?_⟩, ?_⟩
      · simp [tabulate3, gridPoints, List.map_flatMap, Function.comp_def]
      · simp [tabulate3, gridPoints, List.map_flatMap, Function.comp_def]
      · intro x hx a ha
        cases hx
        rw [hax] at ha
        simp only [List.headD_cons] at ha
        simp [ha]
      · intro x hx
        cases hx
        rw [hax]
        rfl
      · intro x hx
        cases hx
        rw [hax]
        rfl
    · cases h
  · obtain ⟨r, hr, h⟩ := (bind_ok_iff _ _ _).mp h
    obtain ⟨s2, h2, h⟩ := (bind_ok_iff _ _ _).mp h
    simp only [pure, Except.pure, Except.ok.injEq, Prod.mk.injEq] at h
    obtain ⟨-, hv⟩ := sampleSetpoints_ok (v := r.1) (s' := r.2) hr
    rw [← h.1]
    refine ⟨trimGridVector (externalEnvTs lo up) lo up, (externalWaterTs c.maxSetpoint).map K_TO_C,
      (externalLeavingTs c s.cfg.setpointFixed s.setpoint).map (· + c.hotSideOffset), rfl, ?_, ?_, ?_, ?_,
      ⟨⟨_, rfl, by simp [externalEnvTs], by simp [externalEnvTs], fun x hx => by cases hx⟩,
        fun x hx => by cases hx⟩, fun x hx => by cases hx⟩
    · simp only [map_C_K]
    · simp [List.map_map, Function.comp_def]
    · simp [hv, tabulate3, gridPoints, List.map_flatMap, List.flatMap_map, Function.comp_def, Logic.K_C]
    · simp [hv, tabulate3, gridPoints, List.map_flatMap, List.flatMap_map, Function.comp_def, Logic.K_C]

/-- What a grid read from tables of two axes evaluates to at its points. -/
theorem gridPerf_two {b : Btwxt} (hb : ExactAtPoints b) {u : Bool} {m : RsMap} {g : PerfGrid ℚ} {lo up : ℚ}
    {style : GridStyle} {int : Bool}
    (h : gridOfRs b u m = .ok (g, lo, up)) {env water : List ℚ} {f q : ℚ → ℚ → ℚ}
    (he : m.env = some (env.map C_TO_K)) (hw : m.water = some (water.map C_TO_K)) (hl : m.leaving = none)
    (h1 : m.inputPower = tabulate2 f env water) (h2 : m.heatingCapacity = tabulate2 q env water)
    (off sp x y : ℚ) (hx : x ∈ env) (hy : y ∈ water) :
    (gridPerf b style int u g off sp x y).inputPower_W = f x y ∧
      (gridPerf b style int u g off sp x y).outputPower_W = q x y ∧
      (gridPerf b style int u g off sp x y).cop = q x y / f x y := by
  obtain ⟨env', water', t, he', hw', hax, htab, hlook, hacc, _⟩ := gridOfRs_ok h
  rw [he] at he'
  rw [hw] at hw'
  cases he'
  cases hw'
  simp only [map_K_C, hl, Option.map_none, Option.toList_none] at hax
  rw [h1, h2, tabulate2_eq_map f, tabulate2_eq_map q] at hlook
  obtain ⟨ht, hne⟩ := lookupValues_map hlook
  have hex := hb style int g _ t hacc htab
  rw [hax, points_two, h1, tabulate2_eq_map f, ht, List.map_map, List.zip_map', List.map_inj_left] at hex
  have hv := hex (x, y) (mem_tabulate2.mpr ⟨hx, hy⟩)
  simp only [Function.comp_apply] at hv
  have hne' := fun hu => hne hu (x, y) (mem_tabulate2.mpr ⟨hx, hy⟩)
  unfold gridPerf
  simp only [hax, List.length_cons, List.length_nil, Nat.reduceAdd, gt_iff_lt, lt_self_iff_false, if_false, hv]
  cases u with
  | true => exact ⟨rfl, by simp [mul_div_cancel₀ _ (hne' rfl)], rfl⟩
  | false => exact ⟨rfl, rfl, rfl⟩

/-- The same with three axes. -/
theorem gridPerf_three {b : Btwxt} (hb : ExactAtPoints b) {u : Bool} {m : RsMap} {g : PerfGrid ℚ} {lo up : ℚ}
    {style : GridStyle} {int : Bool}
    (h : gridOfRs b u m = .ok (g, lo, up)) {env water leaving : List ℚ} {f q : ℚ → ℚ → ℚ → ℚ}
    (he : m.env = some (env.map C_TO_K)) (hw : m.water = some (water.map C_TO_K))
    (hl : m.leaving = some (leaving.map C_TO_K))
    (h1 : m.inputPower = tabulate3 f env water leaving) (h2 : m.heatingCapacity = tabulate3 q env water leaving)
    (off sp x y : ℚ) (hx : x ∈ env) (hy : y ∈ water) (hz : sp + off ∈ leaving) :
    (gridPerf b style int u g off sp x y).inputPower_W = f x y (sp + off) ∧
      (gridPerf b style int u g off sp x y).outputPower_W = q x y (sp + off) ∧
      (gridPerf b style int u g off sp x y).cop = q x y (sp + off) / f x y (sp + off) := by
  obtain ⟨env', water', t, he', hw', hax, htab, hlook, hacc, _⟩ := gridOfRs_ok h
  rw [he] at he'
  rw [hw] at hw'
  cases he'
  cases hw'
  simp only [map_K_C, hl, Option.map_some, Option.toList_some] at hax
  rw [h1, h2, tabulate3_eq_map f, tabulate3_eq_map q] at hlook
  obtain ⟨ht, hne⟩ := lookupValues_map hlook
  have hex := hb style int g _ t hacc htab
  rw [hax, points_three, h1, tabulate3_eq_map f, ht, List.map_map, List.zip_map', List.map_inj_left] at hex
  have hm : (x, y, sp + off) ∈ gridPoints env water leaving := mem_gridPoints.mpr ⟨hx, hy, hz⟩
  have hv := hex _ hm
  simp only [Function.comp_apply] at hv
  have hne' := fun hu => hne hu _ hm
  unfold gridPerf
  simp only [hax, List.length_cons, List.length_nil, Nat.reduceAdd, gt_iff_lt, Nat.reduceLT, if_true, hv]
  cases u with
  | true => exact ⟨rfl, by simp [mul_div_cancel₀ _ (hne' rfl)], rfl⟩
  | false => exact ⟨rfl, rfl, rfl⟩

namespace Machine

/-! ## C70 -/

/-- **C70, integrated systems.** The exported performance map of a condenser tabulates, row by row, the power
and the heating capacity the simulator has at its setpoint; its temperatures run from the least to the greatest
the condenser works at; and the condenser of the imported simulator has the same performance at all
these temperatures, whatever its setpoint. The interpolation library must be exact at the points of a grid, and
the condenser's heating capacity must be its power times its coefficient of performance (as it is for all
performance functions the library makes, `C70_made_consistent`). -/
theorem C70_integrated (M M' : Machine n k) (b : Btwxt) (hb : ExactAtPoints b) (base : Machine n k₀)
    (d : SimInput k) (s' : Sim n k) (he : M.toInput = .ok (d, s')) (hi : ofInput b base d = .ok M') (i : Fin k)
    (c : CondCfg) (hk : (M.sim.cfg.src i).kind = .condenser c) (hc : c.configuration ≠ .external)
    (hcons : ∀ e w, Consistent (c.evaluate M.sim.setpoint e w)) :
    ∃ m env water c', mapOf d i = some m ∧
      m.env = some (env.map C_TO_K) ∧ m.water = some (water.map C_TO_K) ∧ m.leaving = none ∧
      m.inputPower = tabulate2 (fun e w => (c.evaluate M.sim.setpoint e w).inputPower_W) env water ∧
      m.heatingCapacity = tabulate2 (fun e w => (c.evaluate M.sim.setpoint e w).outputPower_W) env water ∧
      env.Pairwise (· < ·) ∧
      (∀ x ∈ env, (M.sim.cfg.src i).minT ≤ x ∧ x ≤ (M.sim.cfg.src i).maxT) ∧
      ((M.sim.cfg.src i).minT ≤ (M.sim.cfg.src i).maxT →
        (M.sim.cfg.src i).minT ∈ env ∧ (M.sim.cfg.src i).maxT ∈ env) ∧
      (∀ g, M.grid i = some g → g.axes[1]? = some water ∧ ∀ x ∈ g.axes.headD [],
        (M.sim.cfg.src i).minT ≤ x → x ≤ (M.sim.cfg.src i).maxT → x ∈ env) ∧
      (M'.sim.cfg.src i).kind = .condenser c' ∧
      ∀ sp, ∀ e ∈ env, ∀ w ∈ water, SamePerf (c'.evaluate sp e w) (c.evaluate M.sim.setpoint e w) := by
  obtain ⟨x, y, m, g, lo, up, hsys, hsrc, hym, hm, hg, hkind, -⟩ := integrated_condenser he hi hk hc
  obtain ⟨env, water, h1, h2, h3, h4, h5, ⟨v, hv, hlo, hup, hall⟩, hwater⟩ := integratedMap_tables hm
  obtain ⟨hs, hmem⟩ := C47_trim v (M.sim.cfg.src i).minT (M.sim.cfg.src i).maxT
  rw [← hv] at hs hmem
  refine ⟨m, env, water, _, ?_, h1, h2, h3, h4, h5, hs, fun x hx => ((hmem x).mp hx).2, ?_, ?_, hkind, ?_⟩
  · simp only [mapOf, sourceOf, configOf, hsys, hsrc, hym]
  · intro hle
    exact ⟨(hmem _).mpr ⟨hlo, le_rfl, hle⟩, (hmem _).mpr ⟨hup, hle, le_rfl⟩⟩
  · intro g hg'
    exact ⟨hwater g hg', fun x hx hxl hxu => (hmem x).mpr ⟨hall g hg' x hx, hxl, hxu⟩⟩
  · intro sp e hme w hw
    obtain ⟨p1, p2, p3⟩ := gridPerf_two (style := base.style) (int := true) hb hg h1 h2 h3 h4 h5 0 sp e w hme hw
    refine ⟨p1, p2, fun hne => ?_⟩
    simp only [cameBackIntegrated, p3]
    rw [hcons e w, mul_div_cancel_right₀ _ hne]

/-- **C70, central systems.** The same with the temperature of the water leaving the heat pump (setpoint plus
the offset of the secondary heat exchanger) as a third axis. -/
theorem C70_external (M M' : Machine n k) (b : Btwxt) (hb : ExactAtPoints b) (base : Machine n k₀)
    (d : SimInput k) (s' : Sim n k) (he : M.toInput = .ok (d, s')) (hi : ofInput b base d = .ok M') (i : Fin k)
    (c : CondCfg) (hk : (M.sim.cfg.src i).kind = .condenser c) (hc : c.configuration = .external)
    (hcons : ∀ sp e w, Consistent (c.evaluate sp e w)) :
    ∃ m env water leaving c', mapOf d i = some m ∧
      m.env = some (env.map C_TO_K) ∧ m.water = some (water.map C_TO_K) ∧ m.leaving = some (leaving.map C_TO_K) ∧
      m.inputPower = tabulate3 (fun e w o => (c.evaluate (o - c.hotSideOffset) e w).inputPower_W) env water leaving ∧
      m.heatingCapacity
        = tabulate3 (fun e w o => (c.evaluate (o - c.hotSideOffset) e w).outputPower_W) env water leaving ∧
      env.Pairwise (· < ·) ∧
      (∀ x ∈ env, (M.sim.cfg.src i).minT ≤ x ∧ x ≤ (M.sim.cfg.src i).maxT) ∧
      ((M.sim.cfg.src i).minT ≤ (M.sim.cfg.src i).maxT →
        (M.sim.cfg.src i).minT ∈ env ∧ (M.sim.cfg.src i).maxT ∈ env) ∧
      (∀ g, M.grid i = some g → g.axes[1]? = some water ∧ g.axes[2]? = some leaving ∧ ∀ x ∈ g.axes.headD [],
        (M.sim.cfg.src i).minT ≤ x → x ≤ (M.sim.cfg.src i).maxT → x ∈ env) ∧
      (M'.sim.cfg.src i).kind = .condenser c' ∧
      ∀ e ∈ env, ∀ w ∈ water, ∀ o ∈ leaving,
        SamePerf (c'.evaluate (o - c'.hotSideOffset) e w) (c.evaluate (o - c.hotSideOffset) e w) := by
  obtain ⟨x, y, m, g, lo, up, s1, s2, j, cj, hsys, hsrc, hym, hsb, hm, hj, hkj, hg, hkind, -⟩ :=
    external_condenser he hi hk hc
  obtain ⟨env, water, leaving, h1, h2, h3, h4, h5, ⟨⟨v, hv, hlo, hup, hall⟩, hwater⟩, hleaving⟩ :=
    externalMap_tables hm
  obtain ⟨hs, hmem⟩ := C47_trim v (M.sim.cfg.src i).minT (M.sim.cfg.src i).maxT
  rw [← hv] at hs hmem
  have h5' : m.heatingCapacity
      = tabulate3 (fun e w o => (c.evaluate (o - c.hotSideOffset) e w).outputPower_W) env water leaving := by
    rw [h5]
    congr 1
    funext e w o
    split_ifs
    · exact (hcons _ _ _).symm
    · rfl
  refine ⟨m, env, water, leaving, _, ?_, h1, h2, h3, h4, h5', hs, fun x hx => ((hmem x).mp hx).2, ?_, ?_, hkind, ?_⟩
  · simp only [mapOf, sourceOf, configOf, hsys, hsrc, hym]
  · intro hle
    exact ⟨(hmem _).mpr ⟨hlo, le_rfl, hle⟩, (hmem _).mpr ⟨hup, hle, le_rfl⟩⟩
  · intro g hg'
    exact ⟨hwater g hg', hleaving g hg', fun x hx hxl hxu => (hmem x).mpr ⟨hall g hg' x hx, hxl, hxu⟩⟩
  · intro e hme w hw o ho
    have hev : ∀ eval, (cameBackExternal c cj eval).evaluate = eval := by
      intro eval; unfold cameBackExternal CondCfg.withDefrost; split_ifs <;> rfl
    have hho : ∀ eval, (cameBackExternal c cj eval).hotSideOffset
        = if cj.extraPumpPower_W > 0 then cj.hotSideOffset else 0 := by
      intro eval; unfold cameBackExternal CondCfg.withDefrost; split_ifs <;> rfl
    rw [hev, hho]
    generalize (if cj.extraPumpPower_W > 0 then cj.hotSideOffset else 0) = off at *
    obtain ⟨p1, p2, p3⟩ := gridPerf_three (style := base.style) (int := false) hb hg h1 h2 h3 h4 h5' off (o - off)
      e w hme hw (by rw [sub_add_cancel]; exact ho)
    rw [sub_add_cancel] at p1 p2 p3
    refine ⟨p1, p2, fun hne => ?_⟩
    rw [p3, hcons _ e w, mul_div_cancel_right₀ _ hne]

/-- **C70.** The hypothesis of `C70_integrated` and `C70_external` holds for the performance functions the library
makes from polynomials, and for those it makes from grids wherever power is used. -/
theorem C70_made_consistent :
    (∀ (ps : PolySet) a w p, ps.evaluate a w = .ok p → Consistent p) ∧
    (∀ (q : Poly) sp off a w p, q.singlePass sp off a w = .ok p → Consistent p) ∧
    (∀ (q : Poly) a w p, q.multiPass a w = .ok p → Consistent p) ∧
    ∀ b style int u g off sp a w, (gridPerf b style int u g off sp a w).inputPower_W ≠ 0 →
      Consistent (gridPerf b style int u g off sp a w) := by
  refine ⟨?_, ?_, ?_, ?_⟩
  · intro ps a w p h
    unfold PolySet.evaluate at h
    simp only [bind_ok_iff, pure, Except.pure, Except.ok.injEq] at h
    obtain ⟨_, _, _, _, _, _, _, _, _, _, _, _, _, _, _, _, _, _, rfl⟩ := h
    rfl
  · intro q sp off a w p h
    unfold Poly.singlePass at h
    simp only [bind_ok_iff, pure, Except.pure, Except.ok.injEq] at h
    obtain ⟨_, _, _, _, rfl⟩ := h
    rfl
  · intro q a w p h
    unfold Poly.multiPass at h
    simp only [bind_ok_iff, pure, Except.pure, Except.ok.injEq] at h
    obtain ⟨_, _, _, _, rfl⟩ := h
    rfl
  · intro b style int u g off sp a w h
    unfold gridPerf Consistent at *
    cases u with
    | true => simp only [if_true]; ring
    | false =>
      simp only [Bool.false_eq_true, if_false] at h ⊢
      rw [div_mul_cancel₀ _ h]

/-! ## C69 -/

/-- **C69.** Every condenser comes back with its configuration, maximum setpoint, hysteresis and (if not negative)
standby power. -/
theorem C69_condenser (M M' : Machine n k) (b : Btwxt) (base : Machine n k₀) (d : SimInput k) (s' : Sim n k)
    (he : M.toInput = .ok (d, s')) (hi : ofInput b base d = .ok M') (i : Fin k)
    (c : CondCfg) (hk : (M.sim.cfg.src i).kind = .condenser c) :
    ∃ c', (M'.sim.cfg.src i).kind = .condenser c' ∧ c'.configuration = c.configuration ∧
      c'.maxSetpoint = c.maxSetpoint ∧ c'.hysteresis = c.hysteresis ∧
      (0 ≤ c.standbyPower_kW → c'.standbyPower_kW = c.standbyPower_kW) := by
  have hz : ∀ x : ℚ, 0 ≤ x → (if x > 0 then x else 0) = x := by
    intro x hx
    split_ifs with h
    · rfl
    · exact le_antisymm hx (not_lt.mp h)
  by_cases hc : c.configuration = .external
  · obtain ⟨x, y, m, g, lo, up, s1, s2, j, cj, hsys, hsrc, hym, hsb, hm, hj, hkj, hg, hkind, -⟩ :=
      external_condenser he hi hk hc
    refine ⟨_, hkind, ?_⟩
    unfold cameBackExternal
    cases c.doDefrost <;> exact ⟨hc.symm, rfl, rfl, hz _⟩
  · obtain ⟨x, y, m, g, lo, up, hsys, hsrc, hym, hm, hg, hkind, -⟩ := integrated_condenser he hi hk hc
    exact ⟨_, hkind, rfl, rfl, rfl, hz _⟩

/-- **C69.** Every condenser comes back with the range of temperatures it works at. -/
theorem C69_range (M M' : Machine n k) (b : Btwxt) (base : Machine n k₀) (d : SimInput k) (s' : Sim n k)
    (he : M.toInput = .ok (d, s')) (hi : ofInput b base d = .ok M') (i : Fin k)
    (c : CondCfg) (hk : (M.sim.cfg.src i).kind = .condenser c)
    (hle : (M.sim.cfg.src i).minT ≤ (M.sim.cfg.src i).maxT) :
    (M'.sim.cfg.src i).minT = (M.sim.cfg.src i).minT ∧ (M'.sim.cfg.src i).maxT = (M.sim.cfg.src i).maxT := by
  have key : ∀ (m : RsMap) (g : PerfGrid ℚ) (lo up : ℚ) (env water : List ℚ),
      m.env = some (env.map C_TO_K) → Axes (M.grid i) (M.sim.cfg.src i).minT (M.sim.cfg.src i).maxT env water →
      gridOfRs b M.useCOP m = .ok (g, lo, up) → lo = (M.sim.cfg.src i).minT ∧ up = (M.sim.cfg.src i).maxT := by
    intro m g lo up env water henv ⟨⟨v, hv, hlo, hup, _⟩, _⟩ hg
    obtain ⟨env', _, _, he', _, _, _, _, _, h1, h2⟩ := gridOfRs_ok hg
    rw [henv] at he'
    cases he'
    obtain ⟨e1, e2⟩ := trim_ends hle hlo hup
    rw [map_K_C, hv] at h1 h2
    rw [e1] at h1
    rw [e2] at h2
    exact ⟨(Option.some.inj h1).symm, (Option.some.inj h2).symm⟩
  by_cases hc : c.configuration = .external
  · obtain ⟨x, y, m, g, lo, up, s1, s2, j, cj, hsys, hsrc, hym, hsb, hm, hj, hkj, hg, hkind, hlo, hup, -⟩ :=
      external_condenser he hi hk hc
    obtain ⟨env, water, leaving, h1, _, _, _, _, hax, _⟩ := externalMap_tables hm
    rw [hlo, hup]
    exact key m g lo up env water h1 hax hg
  · obtain ⟨x, y, m, g, lo, up, hsys, hsrc, hym, hm, hg, hkind, hlo, hup, -⟩ := integrated_condenser he hi hk hc
    obtain ⟨env, water, h1, _, _, _, _, hax⟩ := integratedMap_tables hm
    rw [hlo, hup]
    exact key m g lo up env water h1 hax hg

/-- **C69, central systems.** A heat pump comes back with its defrost settings (the defrost map is the standard one) and
its limit at low temperatures, if these are given. The mode of operation, the flow rate and the secondary heat
exchanger that come back are those of the compressor, `j`; the exchanger is not written if its pump uses
no power. -/
theorem C69_external (M M' : Machine n k) (b : Btwxt) (base : Machine n k₀) (d : SimInput k) (s' : Sim n k)
    (he : M.toInput = .ok (d, s')) (hi : ofInput b base d = .ok M') (i j : Fin k)
    (c cj : CondCfg) (hk : (M.sim.cfg.src i).kind = .condenser c) (hc : c.configuration = .external)
    (hj : M.sim.cfg.compressorIndex = some j) (hkj : (M.sim.cfg.src j).kind = .condenser cj) :
    ∃ c', (M'.sim.cfg.src i).kind = .condenser c' ∧
      c'.doDefrost = c.doDefrost ∧
      (c.doDefrost = true → c'.defrostMap = [(17, 1), (35, 8865 / 10000), (47, 1)]) ∧
      (0 < c.resDefrostPower_kW → c'.resDefrostPower_kW = c.resDefrostPower_kW ∧
        c'.resDefrostLift_dF = c.resDefrostLift_dF ∧ c'.resDefrostOnBelow_F = c.resDefrostOnBelow_F) ∧
      (c.resDefrostPower_kW ≤ 0 → c'.resDefrostPower_kW = 0) ∧
      (-(27315 / 100) < c.maxOutAirT → c'.maxOutAirT = c.maxOutAirT ∧ c'.maxOutT = c.maxOutT) ∧
      c'.isMultipass = cj.isMultipass ∧ (cj.isMultipass = true → c'.mpFlowRate_LPS = cj.mpFlowRate_LPS) ∧
      (0 < cj.extraPumpPower_W → c'.extraPumpPower_W = cj.extraPumpPower_W ∧
        c'.coldSideOffset = cj.coldSideOffset ∧ c'.hotSideOffset = cj.hotSideOffset) ∧
      (cj.extraPumpPower_W ≤ 0 → c'.extraPumpPower_W = 0 ∧ c'.coldSideOffset = 0 ∧ c'.hotSideOffset = 0) ∧
      c'.inputPowerScale = 1 ∧ c'.copScale = 1 := by
  obtain ⟨x, y, m, g, lo, up, s1, s2, j', cj', hsys, hsrc, hym, hsb, hm, hj', hkj', hg, hkind, -⟩ :=
    external_condenser he hi hk hc
  rw [hj] at hj'
  cases hj'
  rw [hkj] at hkj'
  cases hkj'
  refine ⟨_, hkind, ?_⟩
  cases hd : c.doDefrost
  · have e : ∀ q : CondCfg, q.withDefrost (some false) = q := fun _ => rfl
    unfold cameBackExternal
    rw [hd, e]
    refine ⟨rfl, by simp, ?_, ?_, ?_, rfl, ?_, ?_, ?_, rfl, rfl⟩
    · intro h; exact ⟨if_pos h, if_pos h, if_pos h⟩
    · intro h; exact if_neg (not_lt.mpr h)
    · intro h; exact ⟨if_pos h, if_pos h⟩
    · intro h; exact if_pos h
    · intro h; exact ⟨if_pos h, if_pos h, if_pos h⟩
    · intro h; exact ⟨if_neg (not_lt.mpr h), if_neg (not_lt.mpr h), if_neg (not_lt.mpr h)⟩
  · have e : ∀ q : CondCfg, q.withDefrost (some true) = q.setupDefrostMap (8865 / 10000) := fun _ => rfl
    unfold cameBackExternal
    rw [hd, e]
    refine ⟨rfl, fun _ => rfl, ?_, ?_, ?_, rfl, ?_, ?_, ?_, rfl, rfl⟩
    · intro h; exact ⟨if_pos h, if_pos h, if_pos h⟩
    · intro h; exact if_neg (not_lt.mpr h)
    · intro h; exact ⟨if_pos h, if_pos h⟩
    · intro h; exact if_pos h
    · intro h; exact ⟨if_pos h, if_pos h, if_pos h⟩
    · intro h; exact ⟨if_neg (not_lt.mpr h), if_neg (not_lt.mpr h), if_neg (not_lt.mpr h)⟩

theorem portOf_whole (p : Fin (n + 1)) (x : ℚ) (h1 : (p.val : ℚ) ≤ x) (h2 : x < p.val + 1) :
    portOf (n := n) x = .ok p := by
  have h0 : ¬ x < 0 := not_lt.mpr (le_trans (Nat.cast_nonneg _) h1)
  have hf : ⌊x⌋ = (p.val : ℤ) := Int.floor_eq_iff.mpr ⟨by exact_mod_cast h1, by exact_mod_cast h2⟩
  unfold portOf
  simp only [h0, if_false, hf]
  rw [dif_pos ⟨by positivity, by exact_mod_cast p.isLt⟩]
  rfl

theorem portOf_back (p : Fin (n + 1)) : portOf (n := n) ((p.val : ℚ) / ((n + 1 : ℕ) : ℚ) * ((n + 1 : ℕ) : ℚ)) = .ok p := by
  have h : ((n + 1 : ℕ) : ℚ) ≠ 0 := by positivity
  rw [div_mul_cancel₀ _ h]
  exact portOf_whole p _ le_rfl (by simp)

/-- The compressor of an imported simulator is its last condenser. -/
theorem compressor_back {M M' : Machine n k} {b : Btwxt} {base : Machine n k₀} {d : SimInput k} {s' : Sim n k}
    (he : M.toInput = .ok (d, s')) (hi : ofInput b base d = .ok M') (j : Fin k) (cj : CondCfg)
    (hkj : (M.sim.cfg.src j).kind = .condenser cj)
    (hlast : ∀ i, j < i → ∀ c, (M.sim.cfg.src i).kind ≠ .condenser c) : M'.sim.cfg.compressorIndex = some j := by
  obtain ⟨tank, configs, rs, _, ha, _⟩ := round_trip he hi
  rw [ha.compressor]
  have hk : ∀ i, (∃ c', (M'.sim.cfg.src i).kind = .condenser c') ↔ ∃ c, (M.sim.cfg.src i).kind = .condenser c := by
    intro i
    have := sameKind he hi i
    unfold SameKind at this
    cases h1 : (M'.sim.cfg.src i).kind <;> cases h2 : (M.sim.cfg.src i).kind <;> simp_all
  obtain ⟨cj', hj'⟩ := (hk j).mpr ⟨cj, hkj⟩
  unfold lastCondenser
  have hs : ((List.finRange k).filter fun i => match (M'.sim.cfg.src i).kind with
      | .condenser _ => true
      | .resistance _ => false).Pairwise (· < ·) :=
    (List.pairwise_lt_finRange k).filter _
  have hm : j ∈ (List.finRange k).filter fun i => match (M'.sim.cfg.src i).kind with
      | .condenser _ => true
      | .resistance _ => false := by
    simp [hj']
  have hle : ∀ i ∈ (List.finRange k).filter (fun i => match (M'.sim.cfg.src i).kind with
      | .condenser _ => true
      | .resistance _ => false), i ≤ j := by
    intro i hi'
    rw [List.mem_filter] at hi'
    by_contra hlt
    cases h1 : (M'.sim.cfg.src i).kind with
    | resistance p => rw [h1] at hi'; simp at hi'
    | condenser c' =>
      obtain ⟨c, hc⟩ := (hk i).mp ⟨c', h1⟩
      exact hlast i (not_le.mp hlt) c hc
  generalize (List.finRange k).filter (fun i => match (M'.sim.cfg.src i).kind with
      | .condenser _ => true
      | .resistance _ => false) = l at *
  clear hi he ha
  induction l with
  | nil => cases hm
  | cons x xs ih =>
    by_cases hx : xs = []
    · subst hx
      simp only [List.mem_singleton] at hm
      simp [hm]
    · have h1 := (List.pairwise_cons.mp hs)
      have hup : j ∈ xs := by
        rcases List.mem_cons.mp hm with rfl | h
        · obtain ⟨y, hy⟩ := List.exists_mem_of_ne_nil xs hx
          exact absurd (hle y (by simp [hy])) (not_le.mpr (h1.1 y hy))
        · exact h
      rw [List.getLast?_cons, ih h1.2 hup fun y hy => hle y (by simp [hy])]
      rfl

/-- **C69, central systems.** The compressor's ports come back, if it is the last condenser. -/
theorem C69_ports (M M' : Machine n k) (b : Btwxt) (base : Machine n k₀) (d : SimInput k) (s' : Sim n k)
    (he : M.toInput = .ok (d, s')) (hi : ofInput b base d = .ok M') (j : Fin k) (c : CondCfg)
    (hj : M.sim.cfg.compressorIndex = some j) (hk : (M.sim.cfg.src j).kind = .condenser c)
    (hc : c.configuration = .external)
    (hlast : ∀ i, j < i → ∀ c, (M.sim.cfg.src i).kind ≠ .condenser c) :
    M'.sim.cfg.compressorIndex = some j ∧
      (M'.sim.cfg.src j).externalInlet = (M.sim.cfg.src j).externalInlet ∧
      (M'.sim.cfg.src j).externalOutlet = (M.sim.cfg.src j).externalOutlet := by
  have hx := toInput_ok he
  have hcb := compressor_back he hi j c hk hlast
  rcases hx.system with ⟨x, hsys, hce, _⟩ | ⟨x, j', cj, hsys, hce, _, _, _, hj', hkj, hin, hout, _⟩
  · unfold compressorExternal at hce
    simp [hj, hk, hc] at hce
  · rw [hj] at hj'
    cases hj'
    obtain ⟨rs, ha, hb, _, _, j', hj', hpi, hpo, _⟩ := ofInput_central hsys hi
    rw [hcb] at hj'
    cases hj'
    rw [hx.nodes, hin] at hpi
    rw [hx.nodes, hout] at hpo
    simp only [Option.getD_some, portOf_back, Except.ok.injEq] at hpi hpo
    exact ⟨hcb, hpi.symm, hpo.symm⟩

theorem portOf_shifted (p : Fin (n + 1)) : ∃ q : Fin (n + 1), portOf (n := n)
    ((p.val : ℚ) / ((n + 1 : ℕ) : ℚ) * (n : ℚ)) = .ok q ∧ q.val = p.val - 1 := by
  have hn : (0 : ℚ) < ((n + 1 : ℕ) : ℚ) := by positivity
  have hp := p.isLt
  refine ⟨⟨p.val - 1, by omega⟩, ?_, rfl⟩
  refine portOf_whole _ _ ?_ ?_
  · rw [div_mul_eq_mul_div, le_div_iff₀ hn]
    by_cases h0 : p.val = 0
    · simp [h0]
    · obtain ⟨q, hq⟩ : ∃ q, p.val = q + 1 := ⟨p.val - 1, by omega⟩
      have hqn : (q : ℚ) + 1 ≤ n := by exact_mod_cast (by omega : q + 1 ≤ n)
      simp only [hq, Nat.add_sub_cancel]
      push_cast
      nlinarith
  · rw [div_mul_eq_mul_div, div_lt_iff₀ hn]
    by_cases h0 : p.val = 0
    · simp only [h0]
      push_cast
      have : (0 : ℚ) ≤ n := Nat.cast_nonneg n
      nlinarith
    · obtain ⟨q, hq⟩ : ∃ q, p.val = q + 1 := ⟨p.val - 1, by omega⟩
      simp only [hq, Nat.add_sub_cancel]
      push_cast
      have : (0 : ℚ) ≤ q := Nat.cast_nonneg q
      nlinarith

/-- **C69 fails for other heat pumps of a central system**: whatever their ports were, they come back one
node below those of the compressor (or at the bottom). -/
theorem C69_other_ports_wrong (M M' : Machine n k) (b : Btwxt) (base : Machine n k₀) (d : SimInput k)
    (s' : Sim n k) (he : M.toInput = .ok (d, s')) (hi : ofInput b base d = .ok M') (i j : Fin k) (c cj : CondCfg)
    (hj : M.sim.cfg.compressorIndex = some j) (hkj : (M.sim.cfg.src j).kind = .condenser cj)
    (hlast : ∀ i, j < i → ∀ c, (M.sim.cfg.src i).kind ≠ .condenser c) (hij : i ≠ j)
    (hk : (M.sim.cfg.src i).kind = .condenser c) (hc : c.configuration = .external) :
    (M'.sim.cfg.src i).externalInlet.val = (M.sim.cfg.src j).externalInlet.val - 1 ∧
      (M'.sim.cfg.src i).externalOutlet.val = (M.sim.cfg.src j).externalOutlet.val - 1 := by
  have hx := toInput_ok he
  have hcb := compressor_back he hi j cj hkj hlast
  obtain ⟨x0, y0, m, g, lo, up, s1, s2, j0, cj0, hsys0, hsrc0, -⟩ := external_condenser he hi hk hc
  rcases hx.system with ⟨x, hsys, hce, _⟩ | ⟨x, j', cj', hsys, hce, _, _, _, hj', hkj', hin, hout, _⟩
  · rw [hsys] at hsys0; cases hsys0
  · rw [hsys] at hsys0
    cases hsys0
    rw [hj] at hj'
    cases hj'
    obtain ⟨rs, ha, hb, _, _, j', hj', -, -, hother⟩ := ofInput_central hsys hi
    rw [hcb] at hj'
    cases hj'
    obtain ⟨e1, e2⟩ := hother i hij
    rw [e1, e2]
    obtain ⟨r, hr, hrp⟩ := hb i
    rw [hsrc0] at hr
    have hrk : ∃ c', r.cfg.kind = .condenser c' := by
      simp only [readCentralSource, readHeatPump] at hr
      split at hr
      · cases hr
      · obtain ⟨z, _, hr⟩ := (bind_ok_iff _ _ _).mp hr
        simp only [pure, Except.pure, Except.ok.injEq] at hr
        subst hr
        exact ⟨_, rfl⟩
    obtain ⟨c', hc'⟩ := hrk
    unfold readPorts at hrp
    rw [hc'] at hrp
    simp only [hin, hout, Option.getD_some] at hrp
    obtain ⟨q1, h1, h1'⟩ := portOf_shifted (M.sim.cfg.src j).externalInlet
    obtain ⟨q2, h2, h2'⟩ := portOf_shifted (M.sim.cfg.src j).externalOutlet
    rw [h1, h2] at hrp
    obtain ⟨z1, hz1, hrp⟩ := (bind_ok_iff _ _ _).mp hrp
    obtain ⟨z2, hz2, hrp⟩ := (bind_ok_iff _ _ _).mp hrp
    cases hz1
    cases hz2
    simp only [pure, Except.pure, Except.ok.injEq] at hrp
    rw [← hrp]
    exact ⟨h1', h2'⟩

/-- **C69 fails for integrated condensers' defrost settings**: they come back without defrost, multi-pass (a flag
without effect on them), without offsets and scales. -/
theorem C69_integrated_lost (M M' : Machine n k) (b : Btwxt) (base : Machine n k₀) (d : SimInput k)
    (s' : Sim n k) (he : M.toInput = .ok (d, s')) (hi : ofInput b base d = .ok M') (i : Fin k) (c : CondCfg)
    (hk : (M.sim.cfg.src i).kind = .condenser c) (hc : c.configuration ≠ .external) :
    ∃ c', (M'.sim.cfg.src i).kind = .condenser c' ∧ c'.doDefrost = false ∧ c'.resDefrostPower_kW = 0 ∧
      c'.coldSideOffset = 0 ∧ c'.inputPowerScale = 1 ∧ c'.copScale = 1 ∧ c'.isMultipass = true ∧
      (M'.sim.cfg.src i).airflowFreedom = 1 := by
  obtain ⟨x, y, m, g, lo, up, hsys, hsrc, hym, hm, hg, hkind, _, _, hair, _⟩ := integrated_condenser he hi hk hc
  exact ⟨_, hkind, rfl, rfl, rfl, rfl, rfl, rfl, hair⟩

end Machine

/-! ## What the imported condenser does -/

/-- The performance of a condenser depends on these settings only. -/
theorem getPerformance_congr {c c' : CondCfg} {airflow sp air w : ℚ}
    (h1 : c'.coldSideOffset = c.coldSideOffset)
    (h2 : c'.resDefrostPower_kW = c.resDefrostPower_kW ∨ (c'.resDefrostPower_kW ≤ 0 ∧ c.resDefrostPower_kW ≤ 0))
    (h3 : 0 < c.resDefrostPower_kW →
      c'.resDefrostLift_dF = c.resDefrostLift_dF ∧ c'.resDefrostOnBelow_F = c.resDefrostOnBelow_F)
    (h4 : c'.inputPowerScale = c.inputPowerScale) (h5 : c'.copScale = c.copScale)
    (h6 : c'.doDefrost = c.doDefrost) (h7 : c.doDefrost = true → c'.defrostMap = c.defrostMap)
    (h8 : ∀ a ∈ [air, air + dF_TO_dC c.resDefrostLift_dF],
      (c'.evaluate sp a (w + c.coldSideOffset)).inputPower_W = (c.evaluate sp a (w + c.coldSideOffset)).inputPower_W ∧
      (c'.evaluate sp a (w + c.coldSideOffset)).cop = (c.evaluate sp a (w + c.coldSideOffset)).cop) :
    c'.getPerformance airflow sp air w = c.getPerformance airflow sp air w := by
  unfold CondCfg.getPerformance
  simp only [h1, h4, h5, h6]
  by_cases hp : 0 < c.resDefrostPower_kW
  · obtain ⟨h3a, h3b⟩ := h3 hp
    have h2' : c'.resDefrostPower_kW = c.resDefrostPower_kW := by
      rcases h2 with h | ⟨_, h⟩
      · exact h
      · exact absurd hp (not_lt.mpr h)
    rw [h2', h3a, h3b]
    by_cases ha : air < F_TO_C c.resDefrostOnBelow_F
    · simp only [gt_iff_lt, hp, ha, decide_true, Bool.and_self, if_true]
      obtain ⟨e1, e2⟩ := h8 _ (by simp : air + dF_TO_dC c.resDefrostLift_dF ∈ _)
      rw [e1, e2]
      cases hd : c.doDefrost with
      | false => rfl
      | true => rw [h7 hd]
    · simp only [ha, decide_false, Bool.and_false, Bool.false_eq_true, if_false]
      obtain ⟨e1, e2⟩ := h8 air (by simp)
      rw [e1, e2]
      cases hd : c.doDefrost with
      | false => rfl
      | true => rw [h7 hd]
  · have hp' : ¬ 0 < c'.resDefrostPower_kW := by
      rcases h2 with h | ⟨h, _⟩
      · rw [h]; exact hp
      · exact not_lt.mpr h
    simp only [gt_iff_lt, hp, hp', decide_false, Bool.false_and, Bool.false_eq_true, if_false]
    obtain ⟨e1, e2⟩ := h8 air (by simp)
    rw [e1, e2]
    cases hd : c.doDefrost with
    | false => rfl
    | true => rw [h7 hd]

namespace Machine

/-- **C70, what the simulators use.** At the points of the exported map the imported simulator's condenser has the
performance the original one has at its setpoint, with all corrections, if none of the corrections that are lost
(`C69_integrated_lost`) is in use. -/
theorem C70_performance_integrated (M M' : Machine n k) (b : Btwxt) (hb : ExactAtPoints b) (base : Machine n k₀)
    (d : SimInput k) (s' : Sim n k) (he : M.toInput = .ok (d, s')) (hi : ofInput b base d = .ok M') (i : Fin k)
    (c : CondCfg) (hk : (M.sim.cfg.src i).kind = .condenser c) (hc : c.configuration ≠ .external)
    (hcons : ∀ e w, Consistent (c.evaluate M.sim.setpoint e w))
    (hpos : ∀ e w, (c.evaluate M.sim.setpoint e w).inputPower_W ≠ 0)
    (h1 : c.coldSideOffset = 0) (h2 : c.resDefrostPower_kW ≤ 0) (h3 : c.doDefrost = false)
    (h4 : c.inputPowerScale = 1) (h5 : c.copScale = 1) (h6 : (M.sim.cfg.src i).airflowFreedom = 1) :
    ∃ (m : RsMap) (env water : List ℚ) (c' : CondCfg), mapOf d i = some m ∧
      m.env = some (env.map C_TO_K) ∧ m.water = some (water.map C_TO_K) ∧
      (M'.sim.cfg.src i).kind = .condenser c' ∧
      ∀ e ∈ env, ∀ w ∈ water,
        c'.getPerformance (M'.sim.cfg.src i).airflowFreedom M'.sim.setpoint e w
          = c.getPerformance (M.sim.cfg.src i).airflowFreedom M.sim.setpoint e w := by
  obtain ⟨m, env, water, c', hm, he1, he2, -, -, -, -, -, -, -, hk', hp⟩ :=
    C70_integrated M M' b hb base d s' he hi i c hk hc hcons
  obtain ⟨c'', hk'', g1, g2, g3, g4, g5, -, g6⟩ := C69_integrated_lost M M' b base d s' he hi i c hk hc
  rw [hk'] at hk''
  cases hk''
  have hsp : M'.sim.setpoint = M.sim.setpoint := by
    obtain ⟨tank, configs, rs, ht, ha, _⟩ := round_trip he hi
    rw [ha.setpoint, (toInput_ok he).setpoint]
    exact Logic.K_C _
  refine ⟨m, env, water, c', hm, he1, he2, hk', fun e hee w hw => ?_⟩
  rw [g6, h6, hsp]
  have hz : ∀ q : CondCfg, q.coldSideOffset = 0 → q.resDefrostPower_kW ≤ 0 → q.doDefrost = false →
      q.inputPowerScale = 1 → q.copScale = 1 → ∀ sp, q.getPerformance 1 sp e w
        = .ok ⟨(q.evaluate sp e w).inputPower_W, (q.evaluate sp e w).cop * (q.evaluate sp e w).inputPower_W,
            (q.evaluate sp e w).cop⟩ := by
    intro q e1 e2 e3 e4 e5 sp
    unfold CondCfg.getPerformance
    simp [e1, e3, e4, e5, not_lt.mpr e2, pure, Except.pure, bind, Except.bind]
  rw [hz c' g3 (by rw [g2]) g1 g4 g5, hz c h1 h2 h3 h4 h5]
  obtain ⟨p1, _, p3⟩ := hp M.sim.setpoint e hee w hw
  rw [p1, p3 (hpos e w)]

/-! ## Examples -/

theorem lookup_zip {α β : Type} [BEq α] [LawfulBEq α] (l : List α) (v : List β) (d : β) (hl : v.length = l.length)
    (hn : l.Nodup) : (l.map fun x => ((l.zip v).lookup x).getD d) = v := by
  induction l generalizing v with
  | nil =>
    cases v with
    | nil => rfl
    | cons _ _ => cases hl
  | cons a as ih =>
    cases v with
    | nil => cases hl
    | cons b bs =>
      simp only [List.length_cons, Nat.add_right_cancel_iff] at hl
      obtain ⟨h1, h2⟩ := List.nodup_cons.mp hn
      simp only [List.zip_cons_cons, List.map_cons, List.lookup_cons, beq_self_eq_true, Option.getD_some,
        List.cons.injEq, true_and]
      refine Eq.trans (List.map_congr_left fun x hx => ?_) (ih bs hl h2)
      have : (x == a) = false := by
        simp only [beq_eq_false_iff_ne]
        rintro rfl
        exact h1 hx
      rw [this]

/-- The sample library is exact at grid points. -/
theorem sampleBtwxt_exact : ExactAtPoints sampleBtwxt := by
  intro style int g t1 t2 hacc htab
  simp only [sampleBtwxt, htab, decide_eq_true_eq] at hacc
  obtain ⟨h1, h2, h3⟩ := hacc
  have : sampleBtwxt.value style int g
      = fun x => (((points g.axes).zip (t1.zip t2)).lookup x).getD (0, 0) := by
    funext x
    simp only [sampleBtwxt, htab]
  rw [this]
  exact lookup_zip (points g.axes) (t1.zip t2) (0, 0) (by simp [h1, h2]) h3

/-- The first sample's heat pump meets the hypotheses. -/
example : (sampleMachine.sim.cfg.src 0).kind = .condenser sampleCond ∧ sampleCond.configuration ≠ .external ∧
    (∀ e w, Consistent (sampleCond.evaluate sampleMachine.sim.setpoint e w)) ∧
    (sampleMachine.sim.cfg.src 0).minT ≤ (sampleMachine.sim.cfg.src 0).maxT := by
  refine ⟨rfl, by decide, fun e w => ?_, by decide +kernel⟩
  norm_num [Consistent, sampleCond]

/-- So does the second sample's. -/
example : (sampleCentralMachine.sim.cfg.src 0).kind = .condenser sampleExtCond ∧
    sampleExtCond.configuration = .external ∧ (∀ sp e w, Consistent (sampleExtCond.evaluate sp e w)) ∧
    sampleCentralMachine.sim.cfg.compressorIndex = some 0 ∧
    ∀ i : Fin 2, 0 < i → ∀ c, (sampleCentralMachine.sim.cfg.src i).kind ≠ .condenser c := by
  refine ⟨rfl, by decide, fun sp e w => ?_, rfl, ?_⟩
  · norm_num [Consistent, sampleExtCond]
  · refine Fin.forall_fin_two.mpr ⟨fun h => absurd h (lt_irrefl _), fun _ c hc => ?_⟩
    cases hc

/-- The exported map of the first sample has 4 × 3 values. -/
example : ∃ r, sampleMachine.toInput = .ok r ∧
    (mapOf r.1 0).map (fun m => (m.inputPower.length, m.heatingCapacity.length)) = some (12, 12) := by
  decide +kernel

/-- Two heat pumps in a central system. -/
def sampleTwoPumps : Machine 3 2 :=
  { sampleCentralMachine with
    sim := { sampleCentral with cfg := { sampleCentral.cfg with
      src := ![{ sampleExt with externalInlet := 0, externalOutlet := 0 },
        { sampleExt with externalInlet := 3, externalOutlet := 1 }]
      compressorIndex := some 1 } }
    grid := fun _ => some ⟨[[5, 30], [10, 60], [50, 65]], [[]]⟩ }

/-- `C69_other_ports_wrong` is about systems such as this one: the first heat pump's inlet comes back as node 2
instead of 0. -/
theorem C69_other_ports_witness : (sampleTwoPumps.sim.cfg.src 0).externalInlet = 0 ∧
    ∃ d, sampleTwoPumps.toInput = .ok d ∧ ∃ M', ofInput sampleBtwxt sampleMachine d.1 = .ok M' ∧
      (M'.sim.cfg.src 0).externalInlet = 2 ∧ (M'.sim.cfg.src 1).externalInlet = 3 := by decide +kernel

theorem of_map_error {α : Type} {r : Res α} {e : Err} (h : r.map (fun _ => ()) = .error e) : r = .error e := by
  cases r with
  | ok x => cases h
  | error e' => simpa [Except.map] using h

/-- A performance grid of two axes for an external heat pump makes the export read outside the grid. -/
theorem C70_two_axes_undefined :
    Machine.toInput { sampleCentralMachine with grid := ![some ⟨[[5, 30], [10, 60]], [[]]⟩, none] }
      = .error .ub := of_map_error (by decide +kernel)

/-- A simulator whose compressor is external but which has an integrated condenser too is not exported
properly: memory of another type is written. -/
theorem C69_mixed_undefined :
    Machine.toInput { sampleTwoPumps with sim := { sampleTwoPumps.sim with cfg := { sampleTwoPumps.sim.cfg with
      src := ![sampleReady.cfg.src 0, sampleTwoPumps.sim.cfg.src 1] } } } = .error .ub :=
  of_map_error (by decide +kernel)

end Machine

end HPWH
