import Verif.Props.ExportCondenser

/-! # C72: exporting what has been imported -/

namespace HPWH

open Spec _root_.HPWH.Units

variable {n k k₀ : ℕ}

/-! ## Parts -/

theorem WDist.maximumWeight_rescale_aux {a w : ℚ} (hw : 0 < w) (d : WDist) (r : ℚ) :
    (d.rescale a w).foldl (fun r p => max p.weight r) (r / w) = d.foldl (fun r p => max p.weight r) r / w := by
  induction d generalizing r with
  | nil => rfl
  | cons p ps ih =>
    rw [WDist.rescale_cons, List.foldl_cons, List.foldl_cons, ← ih]
    congr 1
    exact (max_div_div_right hw.le _ _)

/-- A distribution that has been exported and imported is exported as the same. -/
theorem WDist.toRs_twice {d : WDist} {r : RsDist} (h : d.toRs = .ok r) : (WDist.ofRs r).toRs = .ok r := by
  unfold WDist.toRs at h
  by_cases hd : d = []
  · simp only [hd, dif_pos, Except.ok.injEq] at h
    subst h
    rfl
  · simp only [hd, dif_neg, not_false_eq_true] at h
    split_ifs at h with h0
    simp only [Except.ok.injEq] at h
    push Not at h0
    obtain ⟨hh, hw⟩ := h0
    have hwp : 0 < d.maximumWeight := lt_of_le_of_ne d.maximumWeight_nonneg (Ne.symm hw)
    have he : WDist.ofRs r = d.rescale (d.maximumHeight hd) d.maximumWeight := by
      rw [← h]
      unfold WDist.ofRs WDist.ofVectors WDist.rescale
      simp only [Option.getD_some]
      exact WDist.zip_map_self d _ _
    have hne : d.rescale (d.maximumHeight hd) d.maximumWeight ≠ [] := WDist.rescale_ne_nil hd
    have e1 : WDist.maximumHeight (d.rescale (d.maximumHeight hd) d.maximumWeight) hne = 1 := by
      rw [WDist.rescale_maximumHeight d hd, div_self hh]
    have e2 : (d.rescale (d.maximumHeight hd) d.maximumWeight).maximumWeight = 1 := by
      have := WDist.maximumWeight_rescale_aux (a := d.maximumHeight hd) hwp d 0
      rw [zero_div] at this
      unfold WDist.maximumWeight at *
      rw [this, div_self hw]
    rw [he]
    unfold WDist.toRs
    simp only [hne, dif_neg, not_false_eq_true, e1, e2, one_ne_zero, or_self, if_false, div_one, Except.ok.injEq]
    rw [← h]
    simp [WDist.rescale, Function.comp_def]

namespace Logic

theorem dist_twice {dist : Dist} {v : Option RsLocation × Option RsDist} (h : dist.toRs = .ok v) (x : RsTempLogic)
    (h1 : x.location = v.1) (h2 : x.dist = v.2) : (Dist.ofRs x).2.toRs = .ok v := by
  cases dist with
  | top =>
    simp only [Dist.toRs, Except.ok.injEq] at h
    subst h
    simp [Dist.ofRs, h1, h2, Dist.toRs]
  | bottom =>
    simp only [Dist.toRs, Except.ok.injEq] at h
    subst h
    simp [Dist.ofRs, h1, h2, Dist.toRs]
  | weighted d =>
    simp only [Dist.toRs] at h
    obtain ⟨r, hr, h⟩ := (bind_ok_iff _ _ _).mp h
    simp only [pure, Except.pure, Except.ok.injEq] at h
    subst h
    have ht := WDist.toRs_twice hr
    obtain ⟨a, w, _, _, e, _⟩ := WDist.toRs_ok hr
    have e2 : (Dist.ofRs x).2 = .weighted (WDist.ofRs r) := by
      simp only [Dist.ofRs, h1, h2, e]
      rfl
    rw [e2]
    simp only [Dist.toRs, ht]
    rfl

theorem toRs_twice {l : Logic} {r : RsLogic} (h : l.toRs = .ok r) (hk : DirectionKept l) :
    ∃ l', Logic.ofRs r = .ok (some l') ∧ l'.toRs = .ok r := by
  cases hkind : l.kind with
  | temp b dist =>
    unfold Logic.toRs at h
    rw [hkind] at h
    simp only at h
    obtain ⟨v, hv, h⟩ := (bind_ok_iff _ _ _).mp h
    simp only [pure, Except.pure, Except.ok.injEq] at h
    subst h
    cases b with
    | true =>
      refine ⟨_, by simp only [Logic.ofRs, if_true, cmp_ofRs_toRs]; rfl, ?_⟩
      unfold Logic.toRs
      simp only
      rw [dist_twice hv _ rfl rfl]
      simp only [if_true, bind, Except.bind, pure, Except.pure, K_C]
      congr 3
      cases l.checkStandby <;> rfl
    | false =>
      refine ⟨_, by simp only [Logic.ofRs, Bool.false_eq_true, if_false, cmp_ofRs_toRs]; rfl, ?_⟩
      unfold Logic.toRs
      simp only
      rw [dist_twice hv _ rfl rfl]
      simp only [Bool.false_eq_true, if_false, bind, Except.bind, pure, Except.pure]
      congr 3
      cases l.checkStandby <;> rfl
  | soc a b c d =>
    have hc : l.cmp = .less := by
      rcases hk with ⟨_, _, h'⟩ | h'
      · rw [hkind] at h'; cases h'
      · exact h'
    unfold Logic.toRs at h
    rw [hkind, hc] at h
    simp only [Except.ok.injEq] at h
    subst h
    exact ⟨_, rfl, rfl⟩

theorem list_twice {l : List Logic} {r : List RsLogic} (h : l.mapM Logic.toRs = .ok r) {l' : List Logic}
    (h' : Logic.listOfRs r = .ok l') (hk : ∀ x ∈ l, DirectionKept x) : l'.mapM Logic.toRs = .ok r := by
  induction l generalizing r l' with
  | nil =>
    simp only [List.mapM_nil, pure, Except.pure, Except.ok.injEq] at h
    subst h
    simp only [Logic.listOfRs, List.mapM_nil, pure, Except.pure, bind, Except.bind, Except.ok.injEq] at h'
    subst h'
    rfl
  | cons x xs ih =>
    rw [List.mapM_cons] at h
    obtain ⟨y, hy, h⟩ := (bind_ok_iff _ _ _).mp h
    obtain ⟨ys, hys, h⟩ := (bind_ok_iff _ _ _).mp h
    simp only [pure, Except.pure, Except.ok.injEq] at h
    subst h
    obtain ⟨x', hx', hs⟩ := toRs_twice hy (hk x (by simp))
    unfold Logic.listOfRs at h'
    obtain ⟨q, hq, h'⟩ := (bind_ok_iff _ _ _).mp h'
    rw [List.mapM_cons, hx'] at hq
    obtain ⟨q1, hq1, hq⟩ := (bind_ok_iff _ _ _).mp hq
    obtain rfl := Except.ok.inj hq1
    obtain ⟨qs, hqs, hq⟩ := (bind_ok_iff _ _ _).mp hq
    simp only [pure, Except.pure, Except.ok.injEq] at hq h'
    subst hq
    subst h'
    have := ih (l' := qs.filterMap id) hys (by unfold Logic.listOfRs; rw [hqs]; rfl) fun z hz => hk z (by simp [hz])
    rw [List.filterMap_cons_some (by rfl : id (some x') = some x'), List.mapM_cons, hs, this]
    rfl

theorem option_twice {l : Option Logic} {r : Option RsLogic} (h : l.mapM Logic.toRs = .ok r)
    {l' : Option (Option Logic)} (h' : r.mapM Logic.ofRs = .ok l') (hk : ∀ x ∈ l, DirectionKept x) :
    l'.join.mapM Logic.toRs = .ok r := by
  cases l with
  | none =>
    simp only [Option.mapM_none, pure, Except.pure, Except.ok.injEq] at h
    subst h
    simp only [Option.mapM_none, pure, Except.pure, Except.ok.injEq] at h'
    subst h'
    rfl
  | some x =>
    rw [Option.mapM_some] at h
    obtain ⟨y, hy, e⟩ := Machine.map_ok h
    subst e
    obtain ⟨x', hx', hs⟩ := toRs_twice hy (hk x (by simp))
    rw [Option.mapM_some, hx'] at h'
    obtain ⟨z, hz, e⟩ := Machine.map_ok h'
    obtain rfl := Except.ok.inj hz
    subst e
    simp only [Option.join_some, Option.mapM_some, hs]
    rfl

end Logic

theorem Info.toRs_twice (x old : Info)
    (h : x.manufacturer.isSome && x.modelNumber.isSome ∨ old.manufacturer = none ∨ old.modelNumber = none) :
    (old.ofRs x.toRs).toRs = x.toRs := by
  obtain ⟨d, m, p⟩ := x
  obtain ⟨d', m', p'⟩ := old
  cases m <;> cases p <;> simp_all [Info.ofRs, Info.toRs] <;> rcases h with rfl | rfl <;> simp

theorem Info.toRs_twice_blank (x : Info) : (Info.blank.ofRs x.toRs).toRs = x.toRs :=
  Info.toRs_twice x _ (Or.inr (Or.inl rfl))

theorem Rating.toRs_twice (x old : Rating) (h : x.isEmpty = false ∨ old.isEmpty = true) :
    (old.ofRs x.toRs).toRs = x.toRs := by
  unfold Rating.ofRs Rating.toRs
  by_cases hx : x.isEmpty = true
  · have : old.isEmpty = true := by
      rcases h with h | h
      · rw [hx] at h; cases h
      · exact h
    simp [hx, this]
  · simp [hx]

theorem Tank.toRs_twice (t old : Tank n) (i i' : Info) (vf : Bool) (hi : i'.toRs = i.toRs)
    (h : t.mixesOnDraw = true → 0 ≤ t.mixBelowFractionOnDraw) :
    Tank.toRs { old.ofRs (t.toRs i) with volumeFixed := vf } i' = t.toRs i := by
  unfold Tank.toRs Tank.ofRs
  simp only [hi, Option.map_some, Option.getD_some, RsTank.mk.injEq, true_and, Option.some.injEq]
  refine ⟨by ring, by ring, by ring, ?_, ?_⟩
  · by_cases hm : t.mixesOnDraw = true
    · simp only [hm, if_true]
      by_cases h0 : t.mixBelowFractionOnDraw > 0
      · simp [h0]
      · simp [le_antisymm (not_lt.mp h0) (h hm)]
    · simp [hm]
  · by_cases hm : t.hasHeatExchanger = true
    · simp [hm]
    · simp [hm]

/-! ## Maps -/

/-- Adding its ends to an ordered axis and trimming changes nothing. -/
theorem trim_own_ends {env : List ℚ} (hs : env.Pairwise (· < ·)) {lo up : ℚ} (hl : env.head? = some lo)
    (hu : env.getLast? = some up) : trimGridVector (env ++ [lo, up]) lo up = env := by
  obtain ⟨h1, h2⟩ := C47_trim (env ++ [lo, up]) lo up
  have hlo : lo ∈ env := List.mem_of_head? hl
  have hup : up ∈ env := List.mem_of_getLast? hu
  have hle : ∀ x ∈ env, lo ≤ x := by
    cases env with
    | nil => cases hl
    | cons a as =>
      simp only [List.head?_cons, Option.some.injEq] at hl
      subst hl
      intro x hx
      rcases List.mem_cons.mp hx with rfl | hx
      · exact le_rfl
      · exact ((List.pairwise_cons.mp hs).1 x hx).le
  have hge : ∀ x ∈ env, x ≤ up := by
    obtain ⟨ys, rfl⟩ := List.getLast?_eq_some_iff.mp hu
    intro x hx
    rcases List.mem_append.mp hx with h | h
    · exact ((List.pairwise_append.mp hs).2.2 x h up (by simp)).le
    · rw [List.mem_singleton.mp h]
  have hmem : ∀ x, x ∈ trimGridVector (env ++ [lo, up]) lo up ↔ x ∈ env := by
    intro x
    rw [h2]
    constructor
    · rintro ⟨h, _, _⟩
      rcases List.mem_append.mp h with h | h
      · exact h
      · simp only [List.mem_cons, List.not_mem_nil, or_false] at h
        rcases h with rfl | rfl
        · exact hlo
        · exact hup
    · intro h
      exact ⟨List.mem_append.mpr (Or.inl h), hle x h, hge x h⟩
  have hp : (trimGridVector (env ++ [lo, up]) lo up).Perm env :=
    (List.perm_ext_iff_of_nodup (h1.imp ne_of_lt) (hs.imp ne_of_lt)).mpr hmem
  exact hp.eq_of_pairwise (fun a b _ _ hab hba => absurd (lt_trans hab hba) (lt_irrefl _)) h1 hs

theorem tabulate2_congr {α : Type} {f g : ℚ → ℚ → α} {xs ys : List ℚ}
    (h : ∀ x ∈ xs, ∀ y ∈ ys, f x y = g x y) : tabulate2 f xs ys = tabulate2 g xs ys := by
  rw [tabulate2_eq_map f, tabulate2_eq_map g]
  refine List.map_congr_left ?_
  rintro ⟨x, y⟩ hp
  obtain ⟨hx, hy⟩ := mem_tabulate2.mp hp
  exact h x hx y hy

theorem tabulate3_congr {α : Type} {f g : ℚ → ℚ → ℚ → α} {xs ys zs : List ℚ}
    (h : ∀ x ∈ xs, ∀ y ∈ ys, ∀ z ∈ zs, f x y z = g x y z) : tabulate3 f xs ys zs = tabulate3 g xs ys zs := by
  rw [tabulate3_eq_map f, tabulate3_eq_map g]
  refine List.map_congr_left ?_
  rintro ⟨x, y, z⟩ hp
  obtain ⟨hx, hy, hz⟩ := mem_gridPoints.mp hp
  exact h x hx y hy z hz

/-- The map of an imported integrated condenser. -/
theorem integratedMap_twice {b : Btwxt} (hb : ExactAtPoints b) {style : GridStyle} {u u' : Bool}
    {eval : ℚ → ℚ → Perf} {lo up mx : ℚ} {g0 : Option (PerfGrid ℚ)} {m : RsMap} {g : PerfGrid ℚ} {lo' up' : ℚ}
    (h : integratedMap eval lo up mx u' g0 = .ok m) (hg : gridOfRs b u m = .ok (g, lo', up')) (sp mx' : ℚ) (u'' : Bool) :
    integratedMap (gridPerf b style true u g 0 sp) lo' up' mx' u'' (some g) = .ok m := by
  obtain ⟨env, water, h1, h2, h3, h4, h5, ⟨⟨v, hv, _⟩, _⟩⟩ := integratedMap_tables h
  obtain ⟨env', water', t, he', hw', hax, htab, hlook, hacc, hhd, hlast⟩ := gridOfRs_ok hg
  rw [h1] at he'
  rw [h2] at hw'
  cases he'
  cases hw'
  simp only [map_K_C, h3, Option.map_none, Option.toList_none] at hax hhd hlast
  have hs : env.Pairwise (· < ·) := by rw [hv]; exact (C47_trim _ _ _).1
  unfold integratedMap
  simp only [hax, trim_own_ends hs hhd hlast, Except.ok.injEq]
  have hp := fun e w he hw => gridPerf_two (style := style) (int := true) hb hg h1 h2 h3 h4 h5 0 sp e w he hw
  have e1 : ((env.flatMap fun e => water.map fun w => gridPerf b style true u g 0 sp e w).map (·.inputPower_W))
      = m.inputPower := by
    rw [h4]
    refine Eq.trans ?_ (tabulate2_congr fun x hx y hy => (hp x y hx hy).1)
    simp [tabulate2, List.map_flatMap, Function.comp_def]
  have e2 : ((env.flatMap fun e => water.map fun w => gridPerf b style true u g 0 sp e w).map (·.outputPower_W))
      = m.heatingCapacity := by
    rw [h5]
    refine Eq.trans ?_ (tabulate2_congr fun x hx y hy => (hp x y hx hy).2.1)
    simp [tabulate2, List.map_flatMap, Function.comp_def]
  rw [e1, e2, ← h1, ← h2, ← h3]

/-- The map of an imported external condenser. -/
theorem externalMap_twice {b : Btwxt} (hb : ExactAtPoints b) {style : GridStyle} {u : Bool}
    {s s' s0 : Sim n k} {c c' : CondCfg} {lo up : ℚ} {g0 : Option (PerfGrid ℚ)} {m : RsMap} {g : PerfGrid ℚ}
    {lo' up' : ℚ} (h : externalMap s c lo up g0 = .ok (m, s')) (hg : gridOfRs b u m = .ok (g, lo', up'))
    (hc : c'.evaluate = gridPerf b style false u g c'.hotSideOffset) :
    ∃ s1, externalMap s0 c' lo' up' (some g) = .ok (m, s1) := by
  obtain ⟨env, water, leaving, h1, h2, h3, h4, h5, ⟨⟨v, hv, _⟩, _⟩, _⟩ := externalMap_tables h
  obtain ⟨env', water', t, he', hw', hax, htab, hlook, hacc, hhd, hlast⟩ := gridOfRs_ok hg
  rw [h1] at he'
  rw [h2] at hw'
  cases he'
  cases hw'
  simp only [map_K_C, h3, Option.map_some, Option.toList_some] at hax hhd hlast
  have hs : env.Pairwise (· < ·) := by rw [hv]; exact (C47_trim _ _ _).1
  unfold externalMap
  simp only [hax, trim_own_ends hs hhd hlast, hc]
  have hp := fun e w o he hw ho => gridPerf_three (style := style) (int := false) hb hg h1 h2 h3 h4 h5
    c'.hotSideOffset (o - c'.hotSideOffset) e w he hw (by rw [sub_add_cancel]; exact ho)
  simp only [sub_add_cancel] at hp
  have e1 : (((gridPoints env water leaving).map fun p => gridPerf b style false u g c'.hotSideOffset
      (p.2.2 - c'.hotSideOffset) p.1 p.2.1).map (·.inputPower_W)) = m.inputPower := by
    rw [h4]
    refine Eq.trans ?_ (tabulate3_congr fun x hx y hy z hz => (hp x y z hx hy hz).1)
    rw [tabulate3_eq_map, List.map_map]
    rfl
  have e2 : (((gridPoints env water leaving).map fun p => gridPerf b style false u g c'.hotSideOffset
      (p.2.2 - c'.hotSideOffset) p.1 p.2.1).map (·.outputPower_W)) = m.heatingCapacity := by
    rw [h5]
    refine Eq.trans ?_ (tabulate3_congr fun x hx y hy z hz => (hp x y z hx hy hz).2.1)
    rw [tabulate3_eq_map, List.map_map]
    rfl
  rw [e1, e2, ← h1, ← h2, ← h3]
  exact ⟨_, rfl⟩

namespace Machine

/-! ## Heat sources -/

/-- A resistance element as it comes back. -/
theorem resistance_back {M M' : Machine n k} {b : Btwxt} {base : Machine n k₀} {d : SimInput k} {s' : Sim n k}
    (he : M.toInput = .ok (d, s')) (hi : ofInput b base d = .ok M') {i : Fin k} {p : ℚ}
    (hk : (M.sim.cfg.src i).kind = .resistance p) :
    (M'.sim.cfg.src i).kind = .resistance p ∧ M'.srcInfo i = Info.blank.ofRs (M.srcInfo i).toRs := by
  have h1 := sameKind he hi i
  unfold SameKind at h1
  rw [hk] at h1
  refine ⟨?_, ?_⟩
  · cases h : (M'.sim.cfg.src i).kind with
    | resistance q => rw [h] at h1; simp only at h1; rw [h1]
    | condenser c => rw [h] at h1; exact h1.elim
  · obtain ⟨tank, configs, rs, _, ha, hc⟩ := round_trip he hi
    obtain ⟨q, hq, hqi, _, px, py, hsrc⟩ := ha.read i
    obtain ⟨s1, s2, hsb, hx, hrs⟩ := hc i
    have hsource := sourceToRs_ok hx.source
    rw [hsb.cfg, hk] at hsource
    rcases hsource with ⟨p', hp, hs, _⟩ | ⟨c, y, hp, _⟩ | ⟨c, y, hp, _⟩
    · cases hp
      rw [hqi, hq.info]
      rw [hs] at hrs
      rcases hrs with h | ⟨x, r, h, h'⟩
      · simp only [readIntegratedSource, Except.ok.injEq] at h
        rw [← h]
        rfl
      · simp only [readCentralSource, Except.ok.injEq] at h
        subst h
        have h2 : Except.ok (readResistance (M.srcInfo i).toRs (1000 * p)) = Except.ok (ε := Err) (rs i) := h'
        rw [← Except.ok.inj h2]
        rfl
    · cases hp
    · cases hp

/-- Without a compressor only elements can be exported. -/
theorem no_condenser {M : Machine n k} {d : SimInput k} {s' : Sim n k} (he : M.toInput = .ok (d, s'))
    (h0 : M.sim.cfg.compressorIndex = none) (i : Fin k) (c : CondCfg) : (M.sim.cfg.src i).kind ≠ .condenser c := by
  intro hk
  have hl : ∃ cs, M.configLoop (List.finRange k) (fun _ => .blank) M.sim = .ok (cs, s') := by
    rcases (toInput_ok he).system with ⟨x, _, _, _, _, _, _, h⟩ | ⟨x, j, c, _, _, _, _, h, _⟩
    · exact ⟨_, h⟩
    · exact ⟨_, h⟩
  obtain ⟨cs, hl⟩ := hl
  obtain ⟨s1, s2, hsb, hx⟩ := (configs_ok hl).2 i
  have := hx.source
  unfold sourceToRs at this
  simp only at this
  rw [hsb.cfg, hk] at this
  simp only [h0, if_true] at this
  cases this

theorem compressor_same {M M' : Machine n k} {b : Btwxt} {base : Machine n k₀} {d : SimInput k} {s' : Sim n k}
    (he : M.toInput = .ok (d, s')) (hi : ofInput b base d = .ok M') (hc : CompressorLast M.sim) :
    M'.sim.cfg.compressorIndex = M.sim.cfg.compressorIndex := by
  cases h0 : M.sim.cfg.compressorIndex with
  | some j =>
    obtain ⟨⟨c, h1⟩, h2⟩ := hc j h0
    exact compressor_back he hi j c h1 h2
  | none =>
    obtain ⟨tank, configs, rs, _, ha, _⟩ := round_trip he hi
    rw [ha.compressor]
    cases h1 : lastCondenser M'.sim.cfg.src with
    | none => rfl
    | some j =>
      obtain ⟨c, hcj⟩ := lastCondenser_eq h1
      have := sameKind he hi j
      unfold SameKind at this
      rw [hcj] at this
      cases h2 : (M.sim.cfg.src j).kind with
      | resistance p => rw [h2] at this; exact this.elim
      | condenser c' => exact absurd h2 (no_condenser he h0 j c')

theorem compressorExternal_same {M M' : Machine n k} {b : Btwxt} {base : Machine n k₀} {d : SimInput k}
    {s' : Sim n k} (he : M.toInput = .ok (d, s')) (hi : ofInput b base d = .ok M') (hc : CompressorLast M.sim) :
    compressorExternal M'.sim = compressorExternal M.sim := by
  unfold compressorExternal
  rw [compressor_same he hi hc]
  cases h0 : M.sim.cfg.compressorIndex with
  | none => rfl
  | some j =>
    simp only
    obtain ⟨⟨c, h1⟩, h2⟩ := hc j h0
    rw [h1]
    by_cases hx : c.configuration = .external
    · obtain ⟨x, y, m, g, lo, up, s1, s2, j', cj, _, _, _, _, _, _, _, _, hk', _⟩ := external_condenser he hi h1 hx
      rw [hk']
      have : (cameBackExternal c cj (gridPerf b base.style false M.useCOP g
        (if cj.extraPumpPower_W > 0 then cj.hotSideOffset else 0))).configuration = .external := by
        unfold cameBackExternal CondCfg.withDefrost
        split <;> rfl
      simp [this, hx]
    · obtain ⟨x, y, m, g, lo, up, _, _, _, _, _, hk', _⟩ := integrated_condenser he hi h1 hx
      rw [hk']
      rfl

/-- What comes back of heat source `i` is exported as it was the first time. -/
theorem source_twice {M M' : Machine n k} {b : Btwxt} (hb : ExactAtPoints b) {base : Machine n k₀} {d : SimInput k}
    {s' : Sim n k} (he : M.toInput = .ok (d, s')) (hi : ofInput b base d = .ok M') (hc : CompressorLast M.sim)
    (i : Fin k) (s0 : Sim n k) (h0 : M'.sim.SameBut s0) :
    ∃ s2, M'.sourceToRs s0 i = .ok (sourceOf d i, s2) := by
  have hce := compressorExternal_same he hi hc
  have hci := compressor_same he hi hc
  have hce0 : compressorExternal s0 = compressorExternal M.sim := by
    rw [← hce]; unfold compressorExternal; rw [h0.cfg]
  unfold sourceToRs
  simp only
  rw [h0.cfg, hci]
  -- the first export
  have hfirst : ∃ s1 s2, M.sim.SameBut s1 ∧ M.sourceToRs s1 i = .ok (sourceOf d i, s2) := by
    rcases (toInput_ok he).system with ⟨x, hx, _, _, _, _, _, h3⟩ | ⟨x, j, c, hx, _, _, _, h3, _⟩
    · obtain ⟨s1, s2, a, e⟩ := (configs_ok h3).2 i
      exact ⟨s1, s2, a, by rw [e.source]; simp [sourceOf, configOf, hx]⟩
    · obtain ⟨s1, s2, a, e⟩ := (configs_ok h3).2 i
      exact ⟨s1, s2, a, by rw [e.source]; simp [sourceOf, configOf, hx]⟩
  obtain ⟨t1, t2, htb, hfirst⟩ := hfirst
  have hso := sourceToRs_ok hfirst
  have hte : compressorExternal t1 = compressorExternal M.sim := by unfold compressorExternal; rw [htb.cfg]
  rw [htb.cfg] at hso
  rw [hte] at hso
  cases hk : (M.sim.cfg.src i).kind with
  | resistance p =>
    obtain ⟨h1, h2⟩ := resistance_back he hi hk
    rw [h1, h2, Info.toRs_twice_blank]
    rcases hso with ⟨p', hp, hs, _⟩ | ⟨c, y, hp, _⟩ | ⟨c, y, hp, _⟩
    · rw [hk] at hp; cases hp
      exact ⟨s0, by rw [hs]⟩
    · rw [hk] at hp; cases hp
    · rw [hk] at hp; cases hp
  | condenser c =>
    have hne : M.sim.cfg.compressorIndex ≠ none := fun h => no_condenser he h i c hk
    by_cases hx : c.configuration = .external
    · obtain ⟨x, y, m, g, lo, up, s1, s2, j, cj, hsys, hsrc, hym, hsb, hm, hj, hkj, hg, hk', hmin, hmax, -, hgr, hinf⟩ :=
        external_condenser he hi hk hx
      rcases hso with ⟨p', hp, _⟩ | ⟨c', y', hp, _, hext, hy', hs⟩ | ⟨c', y', hp, hne', _⟩
      · rw [hk] at hp; cases hp
      · rw [hk] at hp
        cases hp
        have hyy : y' = y := by
          rw [show sourceOf d i = .heatPump y by simp [sourceOf, configOf, hsys, hsrc]] at hs
          cases hs; rfl
        subst hyy
        obtain ⟨m', hm', hym', hyi, hymax, hyh, hyd, hys, hyr, hyl⟩ := heatPumpToRs_ok hy'
        have hmm : m' = m := by rw [hym] at hym'; cases hym'; rfl
        subst hmm
        obtain ⟨sN, hN⟩ := externalMap_twice hb (s0 := s0)
          (c' := cameBackExternal c cj (gridPerf b base.style false M.useCOP g
            (if cj.extraPumpPower_W > 0 then cj.hotSideOffset else 0))) hm hg
          (by
            have e1 : ∀ ev, (cameBackExternal c cj ev).evaluate = ev := fun ev => by
              unfold cameBackExternal CondCfg.withDefrost; split <;> rfl
            have e2 : ∀ ev, (cameBackExternal c cj ev).hotSideOffset
                = if cj.extraPumpPower_W > 0 then cj.hotSideOffset else 0 := fun ev => by
              unfold cameBackExternal CondCfg.withDefrost; split <;> rfl
            rw [e1, e2])
        have e3 : (cameBackExternal c cj (gridPerf b base.style false M.useCOP g
            (if cj.extraPumpPower_W > 0 then cj.hotSideOffset else 0))).configuration = .external := by
          unfold cameBackExternal CondCfg.withDefrost
          split <;> rfl
        refine ⟨sN, ?_⟩
        rw [hk']
        simp only [if_neg hne, hce0, hext, e3, decide_true, ne_eq, not_true_eq_false, if_false, if_true]
        unfold heatPumpToRs
        rw [hmin, hmax, hgr, hN, hs, hinf, Info.toRs_twice_blank]
        simp only [bind, Except.bind, pure, Except.pure, Except.ok.injEq, Prod.mk.injEq, and_true,
          RsSource.heatPump.injEq]
        have e4 : ∀ ev, (cameBackExternal c cj ev).maxSetpoint = c.maxSetpoint ∧
            (cameBackExternal c cj ev).hysteresis = c.hysteresis ∧
            (cameBackExternal c cj ev).doDefrost = c.doDefrost ∧
            (cameBackExternal c cj ev).standbyPower_kW = (if c.standbyPower_kW > 0 then c.standbyPower_kW else 0) ∧
            (cameBackExternal c cj ev).resDefrostPower_kW
              = (if c.resDefrostPower_kW > 0 then c.resDefrostPower_kW else 0) ∧
            (cameBackExternal c cj ev).resDefrostLift_dF
              = (if c.resDefrostPower_kW > 0 then c.resDefrostLift_dF else 0) ∧
            (cameBackExternal c cj ev).resDefrostOnBelow_F
              = (if c.resDefrostPower_kW > 0 then c.resDefrostOnBelow_F else -999) ∧
            (cameBackExternal c cj ev).maxOutT = (if c.maxOutAirT > -(27315 / 100) then c.maxOutT else 100) ∧
            (cameBackExternal c cj ev).maxOutAirT
              = (if c.maxOutAirT > -(27315 / 100) then c.maxOutAirT else -(27315 / 100)) := fun ev => by
          unfold cameBackExternal CondCfg.withDefrost
          cases c.doDefrost <;> exact ⟨rfl, rfl, rfl, rfl, rfl, rfl, rfl, rfl, rfl⟩
        obtain ⟨f1, f2, f3, f4, f5, f6, f7, f8, f9⟩ := e4 (gridPerf b base.style false M.useCOP g
          (if cj.extraPumpPower_W > 0 then cj.hotSideOffset else 0))
        rw [f1, f2, f3, f4, f5, f6, f7, f8, f9, ← hyi, ← hymax, ← hyh, ← hym, ← hyd]
        obtain ⟨yi, ymax, yh, ym, yd, ys, yr, yl⟩ := y'
        simp only at hys hyr hyl
        rw [hys, hyr, hyl]
        congr 1
        · split_ifs <;> simp_all
        · split_ifs <;> simp_all
        · split_ifs <;> simp_all
      · rw [hk] at hp; cases hp; exact absurd hx hne'
    · obtain ⟨x, y, m, g, lo, up, hsys, hsrc, hym, hm, hg, hk', hmin, hmax, -, hgr, hinf⟩ :=
        integrated_condenser he hi hk hx
      rcases hso with ⟨p', hp, _⟩ | ⟨c', y', hp, hcc, _⟩ | ⟨c', y', hp, _, hext, hy', hs, _⟩
      · rw [hk] at hp; cases hp
      · rw [hk] at hp; cases hp; exact absurd hcc hx
      · rw [hk] at hp
        cases hp
        have hyy : y' = y := by
          rw [show sourceOf d i = .condenser y by simp [sourceOf, configOf, hsys, hsrc]] at hs
          cases hs; rfl
        subst hyy
        unfold condenserToRs at hy'
        obtain ⟨m', hm', hy'⟩ := (bind_ok_iff _ _ _).mp hy'
        simp only [pure, Except.pure, Except.ok.injEq] at hy'
        have hmm : m' = m := by rw [← hy'] at hym; simpa using hym
        subst hmm
        refine ⟨s0, ?_⟩
        rw [hk']
        have e3 : (cameBackIntegrated c (gridPerf b base.style true M.useCOP g 0)).configuration ≠ .external := hx
        simp only [if_neg hne, hce0, hext, decide_eq_false e3, ne_eq, not_true_eq_false, if_false, if_neg e3]
        unfold condenserToRs
        rw [hmin, hmax, hgr]
        have hN := integratedMap_twice (style := base.style) hb hm hg s0.setpoint c.maxSetpoint M'.useCOP
        have e1 : (cameBackIntegrated c (gridPerf b base.style true M.useCOP g 0)).evaluate
            = gridPerf b base.style true M.useCOP g 0 := rfl
        have e2 : (cameBackIntegrated c (gridPerf b base.style true M.useCOP g 0)).maxSetpoint = c.maxSetpoint := rfl
        rw [e1, e2, hN, hs, hinf, Info.toRs_twice_blank, ← hy']
        simp only [bind, Except.bind, pure, Except.pure, Except.ok.injEq, Prod.mk.injEq, and_true,
          RsSource.condenser.injEq]
        unfold cameBackIntegrated
        simp only
        congr 1
        split_ifs <;> simp_all

/-! ## The whole description -/

theorem toInput_multipass {M : Machine n k} {d : SimInput k} {s' : Sim n k} (h : M.toInput = .ok (d, s'))
    {x : RsCentral k} (hx : d.system = .central x) {j : Fin k} {c : CondCfg}
    (hj : M.sim.cfg.compressorIndex = some j) (hk : (M.sim.cfg.src j).kind = .condenser c) :
    x.multipass = some c.isMultipass := by
  unfold toInput at h
  obtain ⟨r, hr, h⟩ := (bind_ok_iff _ _ _).mp h
  simp only [pure, Except.pure, Except.ok.injEq, Prod.mk.injEq] at h
  obtain ⟨rfl, rfl⟩ := h
  unfold systemToRs at hr
  by_cases hc : compressorExternal M.sim = true
  · rw [if_pos hc] at hr
    obtain ⟨z, hz, rfl⟩ := map_ok hr
    simp only [RsSystem.central.injEq] at hx
    subst hx
    unfold centralToRs at hz
    obtain ⟨q, hq, hz⟩ := (bind_ok_iff _ _ _).mp hz
    simp only at hz
    obtain ⟨jc, hjc, hz⟩ := (bind_ok_iff _ _ _).mp hz
    simp only [pure, Except.pure, Except.ok.injEq] at hz
    subst hz
    have hsb := (configs_ok (cs := q.1) (s' := q.2) hq).1
    obtain ⟨h1, h2⟩ := compressor_ok (j := jc.1) (c := jc.2) hjc
    rw [hsb.cfg, hj] at h1
    cases h1
    rw [hsb.cfg, hk] at h2
    cases h2
    rfl
  · rw [if_neg hc] at hr
    obtain ⟨z, hz, rfl⟩ := map_ok hr
    cases hx

theorem primary_same {M M' : Machine n k} {b : Btwxt} {base : Machine n k₀} {d : SimInput k} {s' : Sim n k}
    (hnames : Function.Injective M.name)
    (hnone : (∀ i, (M.sim.cfg.src i).isVIP = false) → ∀ i, M.name i ≠ "")
    (he : M.toInput = .ok (d, s')) (hi : ofInput b base d = .ok M') : M'.primaryName = M.primaryName := by
  obtain ⟨tank, configs, rs, _, ha, hc⟩ := round_trip he hi
  have hname : ∀ i, M'.name i = M.name i := fun i => (C68_sources M M' b base d s' hnames he hi i).1
  have hv : ∀ i, (M'.sim.cfg.src i).isVIP = decide (M.name i = M.primaryName.getD "") := by
    intro i
    obtain ⟨q, hq, _, _, px, py, hsrc⟩ := ha.read i
    rw [hsrc]
    simp only
    rw [hq.isVIP]
    simp only [hname]
  cases hp : M.primaryName with
  | none =>
    have hf : ((List.finRange k).filter fun i => (M.sim.cfg.src i).isVIP) = [] := by
      unfold primaryName at hp
      simpa using hp
    have hall : ∀ i, (M.sim.cfg.src i).isVIP = false := fun i => by
      have := List.filter_eq_nil_iff.mp hf i (List.mem_finRange i)
      simpa using this
    unfold primaryName
    simp [hv, hp, hnone hall]
  | some x =>
    have hx : ∃ v, M.name v = x := by
      unfold primaryName at hp
      obtain ⟨v, _, hv⟩ := Option.map_eq_some_iff.mp hp
      exact ⟨v, hv⟩
    obtain ⟨v, hvx⟩ := hx
    have hf : ((List.finRange k).filter fun i => (M'.sim.cfg.src i).isVIP) = [v] := by
      refine List.perm_singleton.mp ?_
      rw [List.perm_ext_iff_of_nodup ((List.nodup_finRange k).filter _) (List.nodup_singleton v)]
      intro j
      simp [hv, hp, ← hvx, hnames.eq_iff]
    unfold primaryName
    rw [hf]
    simp [hname, hvx]

/-- The loop over the heat sources, if each of them can be exported from any state of the loop. -/
theorem configLoop_forward {M : Machine n k} {cs : Fin k → RsConfig} {l : List (Fin k)}
    (h : ∀ s0, M.sim.SameBut s0 → ∀ i, ∃ s2, M.configToRs s0 i = .ok (cs i, s2)) (c0 : Fin k → RsConfig)
    {s0 : Sim n k} (h0 : M.sim.SameBut s0) :
    ∃ s', M.configLoop l c0 s0 = .ok (fun i => if i ∈ l then cs i else c0 i, s') ∧ M.sim.SameBut s' := by
  induction l generalizing c0 s0 with
  | nil => exact ⟨s0, by simp [configLoop], h0⟩
  | cons j js ih =>
    obtain ⟨s2, hs2⟩ := h s0 h0 j
    have hsb : M.sim.SameBut s2 := h0.trans (sourceToRs_sameBut (configToRs_ok hs2).source)
    obtain ⟨s', h1, h2⟩ := ih (Function.update c0 j (cs j)) hsb
    refine ⟨s', ?_, h2⟩
    simp only [configLoop, hs2, bind, Except.bind, h1, Except.ok.injEq, Prod.mk.injEq, and_true]
    funext i
    by_cases hi : i ∈ js
    · simp [hi]
    · by_cases hij : i = j
      · subst hij; simp [hi]
      · simp [hi, hij]

/-- **C72.** Exporting a simulator, importing the description into a new one and exporting that gives the same
description. The names must differ (and, without a priority heat source, be given), since links and priority
are names; a state-of-charge logic must compare by `less` (`C72_direction_lost`); a mixing fraction in use
must not be negative; the compressor must be the last condenser, as it is in every simulator the program makes
(the import takes it to be); and the interpolation must give the tabulated values at grid points. -/
theorem C72_export_again_partial (M M' : Machine n k) (b : Btwxt) (hb : ExactAtPoints b) (base : Machine n k₀)
    (d : SimInput k) (s' : Sim n k) (hnames : Function.Injective M.name)
    (hnone : (∀ i, (M.sim.cfg.src i).isVIP = false) → ∀ i, M.name i ≠ "")
    (hlogics : ∀ i, (∀ l ∈ (M.sim.cfg.src i).turnOn, DirectionKept l) ∧
      (∀ l ∈ (M.sim.cfg.src i).shutOff, DirectionKept l) ∧ ∀ l ∈ (M.sim.cfg.src i).standby, DirectionKept l)
    (hmix : M.sim.tank.mixesOnDraw = true → 0 ≤ M.sim.tank.mixBelowFractionOnDraw)
    (hcomp : CompressorLast M.sim)
    (hnew : base.tankInfo = Info.blank ∧ base.info = Info.blank ∧ base.rating.isEmpty = true)
    (he : M.toInput = .ok (d, s')) (hi : ofInput b base d = .ok M') :
    ∃ s'', M'.toInput = .ok (d, s'') := by
  have hx := toInput_ok he
  have hprim := primary_same hnames hnone he hi
  have hce := compressorExternal_same he hi hcomp
  have hci := compressor_same he hi hcomp
  -- every heat source is written as before
  have hcfg : ∀ s0, M'.sim.SameBut s0 → ∀ i, ∃ s2, M'.configToRs s0 i = .ok (configOf d i, s2) := by
    intro s0 h0 i
    obtain ⟨s2, hs2⟩ := source_twice hb he hi hcomp i s0 h0
    have hex : ∃ (configs : Fin k → RsConfig) (rs : Fin k → ReadSource n k) (tank : RsTank) (t1 t2 : Sim n k),
        configOf d i = configs i ∧ ImportedAll base d tank configs M.primaryName M' rs ∧ M.sim.SameBut t1 ∧
        M.Exported t1 t2 i (configs i) := by
      rcases hx.system with ⟨x, hx, _, _, _, h1, h2, h3⟩ | ⟨x, j, c, hx, _, h1, h2, h3, _⟩
      · obtain ⟨rs, ha, _⟩ := ofInput_integrated hx hi
        rw [h2] at ha
        obtain ⟨t1, t2, a, c⟩ := (configs_ok h3).2 i
        exact ⟨x.configs, rs, _, t1, t2, by simp [configOf, hx], ha, a, c⟩
      · obtain ⟨rs, ha, _⟩ := ofInput_central hx hi
        rw [h2] at ha
        obtain ⟨t1, t2, a, c⟩ := (configs_ok h3).2 i
        exact ⟨x.configs, rs, _, t1, t2, by simp [configOf, hx], ha, a, c⟩
    obtain ⟨configs, rs, tank, t1, t2, hconf, ha, htb, hexp⟩ := hex
    obtain ⟨q, hq, _, _, px, py, hsrc⟩ := ha.read i
    obtain ⟨hn, hl1, hl2, hl3, _, _⟩ := C68_sources M M' b base d s' hnames he hi i
    have hname : M'.name = M.name := funext fun i => (C68_sources M M' b base d s' hnames he hi i).1
    obtain ⟨g1, g2, g3⟩ := hlogics i
    rw [← htb.cfg] at g1 g2 g3 hl1 hl2 hl3
    obtain ⟨r, hr, hr'⟩ := hexp.dist
    have hd : (M'.sim.cfg.src i).heatDist.toRs = .ok r := by
      have h := hq.heatDist
      rw [hr'] at h
      have : (M'.sim.cfg.src i).heatDist = WDist.ofRs r := by rw [hsrc]; exact h
      rw [this]
      exact WDist.toRs_twice hr
    have hon : (M'.sim.cfg.src i).turnOn.mapM Logic.toRs = .ok (configs i).turnOn := by
      rw [hsrc]; exact Logic.list_twice hexp.turnOn hq.turnOn g1
    have hoff : (M'.sim.cfg.src i).shutOff.mapM Logic.toRs = .ok (configs i).shutOff := by
      rw [hsrc]; exact Logic.list_twice hexp.shutOff hq.shutOff g2
    have hstb : (M'.sim.cfg.src i).standby.mapM Logic.toRs = .ok (configs i).standby := by
      obtain ⟨z, hz, e⟩ := hq.standby
      rw [hsrc]
      simp only
      rw [e]
      exact Logic.option_twice hexp.standby hz g3
    refine ⟨s2, ?_⟩
    unfold configToRs
    simp only
    rw [h0.cfg, hd, hon, hoff, hstb, hs2, hl1, hl2, hl3, hname]
    simp only [bind, Except.bind, pure, Except.pure, Except.ok.injEq, Prod.mk.injEq, and_true]
    rw [← hexp.backup, ← hexp.followedBy, ← hexp.companion, ← hexp.id, ← hr']
    unfold sourceOf
    rw [hconf]
  obtain ⟨s2, hloop, hsb⟩ := configLoop_forward (l := List.finRange k) hcfg (fun _ => .blank) (.refl _)
  simp only [List.mem_finRange, if_true] at hloop
  obtain ⟨tank, configs, rs, htank, ha, _⟩ := round_trip he hi
  have hsp : M'.sim.setpoint = M.sim.setpoint := by rw [ha.setpoint, hx.setpoint]; exact Logic.K_C _
  have hdep : M'.sim.cfg.doTempDepression = M.sim.cfg.doTempDepression := by rw [ha.depresses, hx.depresses]; rfl
  have hvf : M'.sim.tank.volumeFixed = M.sim.tank.volumeFixed := by rw [ha.tankEq, hx.fixedVolume]; rfl
  have htinfo : M'.tankInfo.toRs = M.tankInfo.toRs := by
    rw [ha.tankInfo, htank, hnew.1]
    exact Info.toRs_twice_blank _
  have htk : M'.sim.tank.toRs M'.tankInfo = M.sim.tank.toRs M.tankInfo := by
    rw [ha.tankEq, htank]
    exact Tank.toRs_twice _ _ _ _ _ htinfo hmix
  have hcop : (if M'.sim.cfg.compressorIndex.isSome then some M'.useCOP else none) = d.interpolateCop := by
    rw [hci, ha.useCOP, hx.cop]
    split_ifs <;> rfl
  unfold toInput
  rw [hcop, hsp, hdep, hvf, ← hx.setpoint, ← hx.depresses, ← hx.fixedVolume, ← hx.nodes]
  have hsystem : M'.systemToRs = .ok (d.system, s2) := by
    unfold systemToRs
    rw [hce]
    rcases hx.system with ⟨x, hsys, hc0, h1, h2, h3, h4, h5⟩ |
      ⟨x, j, c, hsys, hc1, h3, h4, h5, hj, hk, hin, hout, hflow, hex⟩
    · obtain ⟨_, _, _, hinfo, hrate⟩ := ofInput_integrated hsys hi
      rw [hc0, hsys]
      unfold integratedToRs
      rw [hloop, htk, hprim, hinfo, hrate, h1, h2, hnew.2.1, Info.toRs_twice_blank,
        Rating.toRs_twice _ _ (Or.inr hnew.2.2), ← h1, ← h2, ← h3, ← h4]
      simp only [Bool.false_eq_true, if_false, bind, Except.bind, pure, Except.pure, Except.map, configOf, hsys]
    · rw [hc1, hsys]
      unfold centralToRs
      rw [hloop, htk, hprim, ← h3, ← h4]
      have hext : c.configuration = .external := by
        unfold compressorExternal at hc1
        rw [hj] at hc1
        simp only [hk] at hc1
        simpa using hc1
      obtain ⟨p1, p2, p3⟩ := C69_ports M M' b base d s' he hi j c hj hk hext (hcomp j hj).2
      obtain ⟨x', y, m, g, lo, up, t1, t2, j', cj, hsys', _, _, _, _, hj', hkj, _, hk', _⟩ :=
        external_condenser he hi hk hext
      rw [hj] at hj'
      cases hj'
      rw [hk] at hkj
      cases hkj
      have hcomp' : s2.compressor = .ok (j, cameBackExternal c c (gridPerf b base.style false M.useCOP g
          (if c.extraPumpPower_W > 0 then c.hotSideOffset else 0))) := by
        unfold Sim.compressor
        rw [hsb.cfg, p1]
        simp only [hk']
      have hmp := toInput_multipass he hsys hj hk
      generalize hev : gridPerf b base.style false M.useCOP g
          (if c.extraPumpPower_W > 0 then c.hotSideOffset else 0) = ev at *
      have e4 : (cameBackExternal c c ev).isMultipass = c.isMultipass ∧
          (cameBackExternal c c ev).mpFlowRate_LPS = (if c.isMultipass then c.mpFlowRate_LPS else 0) ∧
          (cameBackExternal c c ev).extraPumpPower_W
            = (if c.extraPumpPower_W > 0 then c.extraPumpPower_W else 0) ∧
          (cameBackExternal c c ev).coldSideOffset = (if c.extraPumpPower_W > 0 then c.coldSideOffset else 0) ∧
          (cameBackExternal c c ev).hotSideOffset = (if c.extraPumpPower_W > 0 then c.hotSideOffset else 0) := by
        unfold cameBackExternal CondCfg.withDefrost
        cases c.doDefrost <;> exact ⟨rfl, rfl, rfl, rfl, rfl⟩
      obtain ⟨f1, f2, f3, f4, f5⟩ := e4
      simp only [bind, Except.bind, pure, Except.pure, Except.map, if_true, hcomp', Except.ok.injEq, Prod.mk.injEq,
        and_true, RsSystem.central.injEq]
      rw [hsb.cfg, p2, p3, ← hin, ← hout, f1, f2, f3, f4, f5, ← hmp]
      have hflow' : (if c.isMultipass = true then some ((if c.isMultipass = true then c.mpFlowRate_LPS else 0) / 1000)
          else none) = x.fixedFlowRate := by
        rw [hflow]; split_ifs <;> rfl
      have hex' : (if (if c.extraPumpPower_W > 0 then c.extraPumpPower_W else 0) > 0 then
          some ({ coldOffset := if c.extraPumpPower_W > 0 then c.coldSideOffset else 0
                  hotOffset := if c.extraPumpPower_W > 0 then c.hotSideOffset else 0
                  extraPumpPower := if c.extraPumpPower_W > 0 then c.extraPumpPower_W else 0 } : RsExchanger)
          else none) = x.exchanger := by
        rw [hex]
        by_cases h0 : c.extraPumpPower_W > 0
        · simp [h0]
        · simp [h0]
      rw [hflow', hex']
      simp only [configOf, hsys]
  rw [hsystem]
  exact ⟨s2, rfl⟩

/-! ## Examples -/

/-- The first sample meets the hypotheses, with the second as the simulator imported into. -/
example : Function.Injective sampleMachine.name ∧
    ((∀ i, (sampleMachine.sim.cfg.src i).isVIP = false) → ∀ i, sampleMachine.name i ≠ "") ∧
    (∀ i, (∀ l ∈ (sampleMachine.sim.cfg.src i).turnOn, DirectionKept l) ∧
      (∀ l ∈ (sampleMachine.sim.cfg.src i).shutOff, DirectionKept l) ∧
      ∀ l ∈ (sampleMachine.sim.cfg.src i).standby, DirectionKept l) ∧
    (sampleMachine.sim.tank.mixesOnDraw = true → 0 ≤ sampleMachine.sim.tank.mixBelowFractionOnDraw) ∧
    CompressorLast sampleMachine.sim ∧
    (sampleCentralMachine.tankInfo = Info.blank ∧ sampleCentralMachine.info = Info.blank ∧
      sampleCentralMachine.rating.isEmpty = true) ∧
    ∃ d, sampleMachine.toInput = .ok d ∧ ∃ M', ofInput sampleBtwxt sampleCentralMachine d.1 = .ok M' ∧
      M'.sim.cfg.compressorIndex = some 0 := by
  refine ⟨by decide +kernel, by decide +kernel, ?_, by decide +kernel, ?_, by decide +kernel, by decide +kernel⟩
  · refine Fin.forall_fin_two.mpr ⟨⟨fun l hl => ?_, fun l hl => ?_, fun l hl => ?_⟩, fun l hl => ?_,
      fun l hl => ?_, fun l hl => ?_⟩
    · rw [List.mem_singleton.mp (show l ∈ [sampleStandby] from hl)]; exact Or.inl ⟨_, _, rfl⟩
    · rw [List.mem_singleton.mp (show l ∈ [sampleShutOff] from hl)]; exact Or.inl ⟨_, _, rfl⟩
    all_goals cases hl
  · intro j hj
    have : j = 0 := by
      have h0 : sampleMachine.sim.cfg.compressorIndex = some 0 := rfl
      rw [h0] at hj
      cases hj
      rfl
    subst this
    refine ⟨⟨sampleCond, rfl⟩, Fin.forall_fin_two.mpr ⟨fun h => absurd h (lt_irrefl _), fun _ c hc => ?_⟩⟩
    cases hc

/-- A heater whose heat pump is shut off by its state of charge. -/
def sampleSocShutOff : Machine 3 2 :=
  { sampleMachine with sim := { sampleReady with cfg := { sampleReady.cfg with
      src := ![{ sampleReady.cfg.src 0 with shutOff := [{ sampleTurnOn with kind := .soc 40 5 true 10, cmp := .greater }] },
        sampleReady.cfg.src 1] } } }

/-- **C72 fails** for a shut-off logic on the state of charge: it is written as `greater` the first time and as `less`
the second time. -/
theorem C72_direction_lost : ∃ d, sampleSocShutOff.toInput = .ok d ∧
    ((configOf d.1 0).shutOff.map (·.comparison)) = [some .greater] ∧
    ∃ M', ofInput sampleBtwxt sampleCentralMachine d.1 = .ok M' ∧ ∃ d', M'.toInput = .ok d' ∧
      ((configOf d'.1 0).shutOff.map (·.comparison)) = [some .less] := by decide +kernel

end Machine

end HPWH
