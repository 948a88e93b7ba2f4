import Verif.Spec.Loading
import Verif.Props.Commands
import Verif.Props.Reread

/-! # Descriptions loaded under the name of a built-in model (C90) -/

namespace HPWH

open Spec Machine
open _root_.HPWH.Units

variable {n k k₀ : ℕ}

/-! ## What is read from a description -/

theorem Logic.ofRs_plain {r : RsLogic} {l : Logic} (h : Logic.ofRs r = .ok (some l)) :
    l.isEnteringWaterHighTempShutoff = false ∧ l.description ≠ "large draw" := by
  have hd : ∀ x : RsTempLogic, (Dist.ofRs x).1 ≠ "large draw" := by
    intro x
    unfold Dist.ofRs
    dsimp only
    split <;> split <;> simp
  unfold Logic.ofRs at h
  split at h
  · cases h
    exact ⟨rfl, by simp⟩
  · split at h
    · cases h
    · obtain ⟨c, -, h⟩ := (bind_ok_iff _ _ _).mp h
      cases h
      exact ⟨rfl, hd _⟩
    · obtain ⟨c, -, h⟩ := (bind_ok_iff _ _ _).mp h
      cases h
      exact ⟨rfl, hd _⟩

theorem Logic.listOfRs_plain {rs : List RsLogic} {ls : List Logic} (h : Logic.listOfRs rs = .ok ls) :
    ∀ l ∈ ls, l.isEnteringWaterHighTempShutoff = false ∧ l.description ≠ "large draw" := by
  unfold Logic.listOfRs at h
  obtain ⟨xs, h1, h⟩ := (bind_ok_iff _ _ _).mp h
  cases h
  have := mapM_forall₂ h1
  clear h1 h
  intro l hl
  induction this with
  | nil => simp at hl
  | @cons r x rs xs hx _ ih =>
    cases x with
    | none => exact ih (by simpa using hl)
    | some y =>
      simp only [List.filterMap_cons, id, List.mem_cons] at hl
      rcases hl with rfl | hl
      · exact Logic.ofRs_plain hx
      · exact ih hl

namespace Machine

/-- A simulator as read from a description. -/
structure ReadFrom (base : Machine n k₀) (d : SimInput k) (N : Machine n k) : Prop where
  canScale : N.sim.cfg.canScale = base.sim.cfg.canScale
  setpointFixed : N.sim.cfg.setpointFixed = base.sim.cfg.setpointFixed
  isStorageTank : N.sim.cfg.isStorageTank = base.sim.cfg.isStorageTank
  left : LeftOver base.sim N.sim
  plain : ∀ i, ∀ l ∈ (N.sim.cfg.src i).shutOff,
    l.isEnteringWaterHighTempShutoff = false ∧ l.description ≠ "large draw"
  first : ∀ i, (N.sim.cfg.src i).isVIP = decide (N.name i = namedFirst d)
  compressor : N.sim.cfg.compressorIndex = lastCondenser N.sim.cfg.src

theorem ofInput_readFrom {b : Btwxt} {base : Machine n k₀} {d : SimInput k} {N : Machine n k}
    (h : ofInput b base d = .ok N) : ReadFrom base d N := by
  have key : ∀ tank configs primary rs, ImportedAll base d tank configs primary N rs →
      namedFirst d = primary.getD "" → N.sim.cfg.canScale = base.sim.cfg.canScale →
      N.sim.cfg.setpointFixed = base.sim.cfg.setpointFixed → N.sim.cfg.isStorageTank = base.sim.cfg.isStorageTank →
      LeftOver base.sim N.sim → ReadFrom base d N := by
    intro tank configs primary rs ha hp h1 h2 h3 h4
    refine ⟨h1, h2, h3, h4, fun i => ?_, fun i => ?_, ha.compressor⟩
    · obtain ⟨q, hq, -, -, x, y, e⟩ := ha.read i
      rw [e]
      exact Logic.listOfRs_plain hq.shutOff
    · obtain ⟨q, hq, -, -, x, y, e⟩ := ha.read i
      rw [e, hp]
      exact hq.isVIP
  have h' := h
  unfold ofInput at h'
  split_ifs at h' with hn
  cases hd : d.system with
  | integrated x =>
    obtain ⟨rs, ha, -⟩ := ofInput_integrated hd h
    refine key _ _ _ _ ha (by simp only [namedFirst, hd]) ?_ ?_ ?_ ?_ <;>
    · simp only [hd] at h'
      unfold readIntegrated at h'
      obtain ⟨qs, -, h'⟩ := (bind_ok_iff _ _ _).mp h'
      cases h'
      first
        | rfl
        | exact ⟨rfl, rfl, rfl, rfl, rfl, rfl, rfl, rfl, rfl, rfl, rfl⟩
  | central x =>
    obtain ⟨rs, ha, -⟩ := ofInput_central hd h
    refine key _ _ _ _ ha (by simp only [namedFirst, hd]) ?_ ?_ ?_ ?_ <;>
    · simp only [hd] at h'
      unfold readCentral at h'
      obtain ⟨qs, -, h'⟩ := (bind_ok_iff _ _ _).mp h'
      unfold setPorts at h'
      split at h'
      · cases h'
      obtain ⟨pi, -, h'⟩ := (bind_ok_iff _ _ _).mp h'
      obtain ⟨po, -, h'⟩ := (bind_ok_iff _ _ _).mp h'
      cases h'
      first
        | rfl
        | exact ⟨rfl, rfl, rfl, rfl, rfl, rfl, rfl, rfl, rfl, rfl, rfl⟩

/-! ## Adjustments by name -/

/-- How the first logic that shuts the compressor off is changed. -/
def mark (g : PresetGroup) (l : Logic) : Logic :=
  if g = .largeDraw then { l with description := "large draw" } else { l with isEnteringWaterHighTempShutoff := true }

/-- What the adjustments do. -/
structure Adjusted (g : PresetGroup) (s s' : Sim n k) : Prop where
  canScale : s'.cfg.canScale = (s.cfg.canScale || decide (g = .scalable ∨ g = .scalableEnteringWater))
  setpointFixed : s'.cfg.setpointFixed = (s.cfg.setpointFixed || decide (g = .fixedSetpoint))
  isStorageTank : s'.cfg.isStorageTank = s.cfg.isStorageTank
  left : LeftOver s s'
  kind : ∀ i, (s'.cfg.src i).kind = (s.cfg.src i).kind
  first : ∀ i, (s'.cfg.src i).isVIP = true ↔
    ((s.cfg.src i).isVIP = true ∨ (g = .scalableEnteringWater ∧ (i.val = 0 ∨ i.val = 2)))
  same : ∀ i, (g = .other ∨ g = .scalable ∨ s.cfg.compressorIndex ≠ some i) →
    (s'.cfg.src i).shutOff = (s.cfg.src i).shutOff
  marked : g ≠ .other → g ≠ .scalable → ∃ j l ls, s.cfg.compressorIndex = some j ∧
    (s.cfg.src j).shutOff = l :: ls ∧ (s'.cfg.src j).shutOff = mark g l :: ls

/-- What `changeShutOff` does. -/
theorem changeShutOff_ok {f : Logic → Logic} {s s' : Sim n k} (h : changeShutOff f s = .ok s') :
    ∃ j l ls, s.cfg.compressorIndex = some j ∧ (s.cfg.src j).shutOff = l :: ls ∧
      s' = { s with cfg := { s.cfg with
        src := Function.update s.cfg.src j { s.cfg.src j with shutOff := f l :: ls } } } := by
  unfold changeShutOff at h
  split at h
  · cases h
  next j hj =>
    split at h
    · cases h
    next l ls hl => cases h; exact ⟨j, l, ls, hj, hl, rfl⟩

theorem update_field {α β : Type} {ι : Type} [DecidableEq ι] (F : α → β) (a : ι → α) (j : ι) (x : α) (hx : F x = F (a j))
    (i : ι) : F (Function.update a j x i) = F (a i) := by
  by_cases h : i = j
  · subst h; rw [Function.update_self, hx]
  · rw [Function.update_of_ne h]

theorem LeftOver.rfl' (s : Sim n k) : LeftOver s s :=
  ⟨rfl, rfl, rfl, rfl, rfl, rfl, rfl, rfl, rfl, rfl, rfl⟩

/-- The adjustments with one change of the compressor's logic. -/
theorem adjusted_of {g : PresetGroup} (hg1 : g ≠ .other) (hg2 : g ≠ .scalable) {s s1 s' : Sim n k}
    (h : changeShutOff (mark g) s1 = .ok s')
    (canScale : s1.cfg.canScale = (s.cfg.canScale || decide (g = .scalable ∨ g = .scalableEnteringWater)))
    (setpointFixed : s1.cfg.setpointFixed = (s.cfg.setpointFixed || decide (g = .fixedSetpoint)))
    (isStorageTank : s1.cfg.isStorageTank = s.cfg.isStorageTank) (left : LeftOver s s1)
    (kind : ∀ i, (s1.cfg.src i).kind = (s.cfg.src i).kind)
    (first : ∀ i, (s1.cfg.src i).isVIP = true ↔
      ((s.cfg.src i).isVIP = true ∨ (g = .scalableEnteringWater ∧ (i.val = 0 ∨ i.val = 2))))
    (shutOff : ∀ i, (s1.cfg.src i).shutOff = (s.cfg.src i).shutOff)
    (comp : s1.cfg.compressorIndex = s.cfg.compressorIndex) : Adjusted g s s' := by
  obtain ⟨j, l, ls, hj, hl, rfl⟩ := changeShutOff_ok h
  refine ⟨canScale, setpointFixed, isStorageTank,
    ⟨left.1, left.2, left.3, left.4, left.5, left.6, left.7, left.8, left.9, left.10, left.11⟩, fun i => ?_, fun i => ?_,
    fun i hi => ?_, fun _ _ => ⟨j, l, ls, comp ▸ hj, (shutOff j) ▸ hl, ?_⟩⟩
  · exact (update_field (·.kind) s1.cfg.src j { s1.cfg.src j with shutOff := mark g l :: ls } rfl i).trans (kind i)
  · rw [← first i]
    exact iff_of_eq (congrArg (· = true) (update_field (·.isVIP) s1.cfg.src j
      { s1.cfg.src j with shutOff := mark g l :: ls } rfl i))
  · rcases hi with hi | hi | hi
    · exact absurd hi hg1
    · exact absurd hi hg2
    · have : i ≠ j := by
        rintro rfl
        exact hi (comp ▸ hj)
      simp only [Function.update_of_ne this]
      exact shutOff i
  · simp only [Function.update_self]

theorem adjust_ok {g : PresetGroup} {s s' : Sim n k} (h : adjust s g = .ok s') : Adjusted g s s' := by
  cases g with
  | other =>
    cases h
    exact ⟨by simp, by simp, rfl, LeftOver.rfl' s, fun _ => rfl, fun _ => by simp, fun _ _ => rfl, fun h => absurd rfl h⟩
  | scalable =>
    cases h
    exact ⟨by simp, by simp, rfl, ⟨rfl, rfl, rfl, rfl, rfl, rfl, rfl, rfl, rfl, rfl, rfl⟩, fun _ => rfl, fun _ => by simp,
      fun _ _ => rfl, fun _ h => absurd rfl h⟩
  | largeDraw =>
    exact adjusted_of (by simp) (by simp) (s1 := s) h (by simp) (by simp) rfl (LeftOver.rfl' s) (fun _ => rfl)
      (fun _ => by simp) (fun _ => rfl) rfl
  | enteringWater =>
    exact adjusted_of (by simp) (by simp) (s1 := s) h (by simp) (by simp) rfl (LeftOver.rfl' s) (fun _ => rfl)
      (fun _ => by simp) (fun _ => rfl) rfl
  | fixedSetpoint =>
    exact adjusted_of (by simp) (by simp) h (by simp) (by simp) rfl
      ⟨rfl, rfl, rfl, rfl, rfl, rfl, rfl, rfl, rfl, rfl, rfl⟩ (fun _ => rfl) (fun _ => by simp) (fun _ => rfl) rfl
  | scalableEnteringWater =>
    obtain ⟨s1, h1, h⟩ := (bind_ok_iff _ _ _).mp h
    unfold markVIPs at h1
    split_ifs at h1 with hk
    cases h1
    refine adjusted_of (by simp) (by simp) h (by simp) (by simp) rfl
      ⟨rfl, rfl, rfl, rfl, rfl, rfl, rfl, rfl, rfl, rfl, rfl⟩ (fun i => ?_) (fun i => ?_) (fun i => ?_) rfl
    · dsimp only
      split_ifs <;> rfl
    · dsimp only
      split_ifs with hi <;> simp [hi]
    · dsimp only
      split_ifs <;> rfl

end Machine

/-- What accepting a configuration keeps. -/
theorem configure_keeps {m : Libm} {pow : ℚ → ℚ → ℚ} {s s' : Sim n k} (h : s.configure m pow = .ok s') :
    s'.cfg.canScale = s.cfg.canScale ∧ s'.cfg.setpointFixed = s.cfg.setpointFixed ∧
    s'.cfg.isStorageTank = s.cfg.isStorageTank ∧ LeftOver s s' ∧
    (∀ i, (s'.cfg.src i).shutOff = (s.cfg.src i).shutOff ∧ (s'.cfg.src i).isVIP = (s.cfg.src i).isVIP) ∧
    ∃ ix, findIndices s.cfg.src = .ok ix ∧ s'.cfg.compressorIndex = ix.compressor := by
  obtain ⟨s1, h1, -, rfl⟩ := configure_ok h
  obtain ⟨ix, tank, map, hix, ht, -, rfl⟩ := calcDerived_ok h1
  unfold Tank.calcSizeConstants at ht
  dsimp only at ht
  split_ifs at ht
  cases ht
  exact ⟨rfl, rfl, rfl, ⟨rfl, rfl, rfl, rfl, rfl, rfl, rfl, rfl, rfl, rfl, rfl⟩, fun _ => ⟨rfl, rfl⟩, ix, hix, rfl⟩

theorem lastCondenser_max {a : Fin k → SourceCfg n k} {j : Fin k} (h : lastCondenser a = some j) (i : Fin k) (c : CondCfg)
    (hi : (a i).kind = .condenser c) : i ≤ j := by
  unfold lastCondenser at h
  have hs : ((List.finRange k).filter fun i => match (a i).kind with
      | .condenser _ => true
      | .resistance _ => false).Pairwise (· < ·) := (List.pairwise_lt_finRange k).filter _
  have hm : i ∈ (List.finRange k).filter fun i => match (a i).kind with
      | .condenser _ => true
      | .resistance _ => false := by
    rw [List.mem_filter]
    exact ⟨List.mem_finRange i, by rw [hi]⟩
  generalize (List.finRange k).filter _ = xs at h hs hm
  obtain ⟨ys, rfl⟩ := List.getLast?_eq_some_iff.mp h
  rw [List.pairwise_append] at hs
  rcases List.mem_append.mp hm with hm | hm
  · exact le_of_lt (hs.2.2 i hm j (by simp))
  · simp at hm; exact le_of_eq hm

/-- The compressor found by `findIndices` is the last condenser. -/
theorem compressor_last {src : Fin k → SourceCfg n k} {ix : Indices k} (h : findIndices src = .ok ix) {j : Fin k}
    (hj : lastCondenser src = some j) : ix.compressor = some j := by
  have inv := findIndices_inv h
  obtain ⟨c, hc⟩ := lastCondenser_eq hj
  cases e : ix.compressor with
  | none => exact absurd ⟨c, hc⟩ (inv.comp_none e j (List.mem_finRange j))
  | some i =>
    obtain ⟨-, ⟨c', hc'⟩, hmax⟩ := inv.comp_some i e
    exact congrArg some (le_antisymm (lastCondenser_max hj i c' hc') (hmax j (List.mem_finRange j) ⟨c, hc⟩))

/-! ## Names -/

theorem idOf_cases (name : String) : (∃ q ∈ Presets.models, q.1 = name ∧ idOf name = q.2) ∨
    (idOf name = -1 ∧ name ∉ Presets.models.map (·.1)) := by
  unfold idOf Presets.findByName
  cases e : Presets.models.find? fun q => q.1 = name with
  | none =>
    refine Or.inr ⟨rfl, fun hm => ?_⟩
    obtain ⟨q, hq, rfl⟩ := List.mem_map.mp hm
    rw [(Presets.find_iff (·.1) Presets.names_nodup q.1 q).mpr ⟨hq, rfl⟩] at e
    cases e
  | some q =>
    obtain ⟨hq, h⟩ := (Presets.find_iff (·.1) Presets.names_nodup name q).mp e
    exact Or.inl ⟨q, hq, h, rfl⟩

/-- A condition on numbers that holds of exactly the models with a property, and not of −1, is that property. -/
theorem builtIn_iff (name : String) (P : Preset → Prop) [DecidablePred P] (f : ℤ → Prop) (h0 : ¬ f (-1))
    (h : ∀ q ∈ Presets.models, f q.2 ↔ ∃ r ∈ Presets.table, r.1 = q.1 ∧ P r.2) :
    f (idOf name) ↔ BuiltIn name P := by
  have hB : BuiltIn name P ↔ ∃ r ∈ Presets.table, r.1 = name ∧ P r.2 := by
    constructor
    · rintro ⟨p, h1, h2⟩; exact ⟨(name, p), h1, rfl, h2⟩
    · rintro ⟨⟨x, p⟩, h1, rfl, h2⟩; exact ⟨p, h1, h2⟩
  rw [hB]
  rcases idOf_cases name with ⟨q, hq, rfl, e⟩ | ⟨e, hn⟩
  · rw [e]; exact h q hq
  · rw [e]
    refine iff_of_false h0 ?_
    rintro ⟨r, hr, rfl, -⟩
    exact hn (Presets.table_named r hr)

theorem scalable_iff (name : String) :
    (groupOf (idOf name) = .scalable ∨ groupOf (idOf name) = .scalableEnteringWater) ↔
      BuiltIn name (·.canScale = true) :=
  builtIn_iff name _ (fun i => groupOf i = .scalable ∨ groupOf i = .scalableEnteringWater) (by decide +kernel)
    (by decide +kernel)

theorem fixed_iff (name : String) :
    groupOf (idOf name) = .fixedSetpoint ↔ BuiltIn name (·.setpointFixed = true) :=
  builtIn_iff name _ (fun i => groupOf i = .fixedSetpoint) (by decide +kernel) (by decide +kernel)

theorem storage_iff (name : String) : idOf name = idOf "StorageTank" ↔ BuiltIn name (·.isStorageTank = true) :=
  builtIn_iff name _ (fun i => i = idOf "StorageTank") (by decide +kernel) (by decide +kernel)

theorem entering_iff (name : String) :
    (groupOf (idOf name) = .fixedSetpoint ∨ groupOf (idOf name) = .enteringWater ∨
      groupOf (idOf name) = .scalableEnteringWater) ↔ BuiltIn name StopsByEnteringWater :=
  builtIn_iff name _ (fun i => groupOf i = .fixedSetpoint ∨ groupOf i = .enteringWater ∨
    groupOf i = .scalableEnteringWater) (by decide +kernel) (by decide +kernel)

theorem both_iff (name : String) :
    groupOf (idOf name) = .scalableEnteringWater ↔
      name ∈ ["TamScalable_SP", "TamScalable_SP_2X", "TamScalable_SP_Half"] := by
  rcases idOf_cases name with ⟨q, hq, rfl, e⟩ | ⟨e, hn⟩
  · rw [e]
    have : ∀ q ∈ Presets.models, groupOf q.2 = .scalableEnteringWater ↔
      q.1 ∈ ["TamScalable_SP", "TamScalable_SP_2X", "TamScalable_SP_Half"] := by decide +kernel
    exact this q hq
  · rw [e]
    refine iff_of_false (by decide +kernel) fun h => hn ?_
    have : ∀ x ∈ ["TamScalable_SP", "TamScalable_SP_2X", "TamScalable_SP_Half"], x ∈ Presets.models.map (·.1) := by
      decide +kernel
    exact this name h

theorem largeDraw_iff (name : String) : groupOf (idOf name) = .largeDraw ↔ name = "GE2012_50" := by
  rcases idOf_cases name with ⟨q, hq, rfl, e⟩ | ⟨e, hn⟩
  · rw [e]
    have : ∀ q ∈ Presets.models, groupOf q.2 = .largeDraw ↔ q.1 = "GE2012_50" := by decide +kernel
    exact this q hq
  · rw [e]
    refine iff_of_false (by decide +kernel) ?_
    rintro rfl
    exact hn (by decide +kernel)

/-! ## The property -/

/-- The parts of loading a description. -/
theorem init_parts {m : Libm} {pow : ℚ → ℚ → ℚ} {b : Btwxt} {g : PresetGroup} {base : Machine n k₀} {d : SimInput k}
    {M : Machine n k} (h : Machine.init m pow b g base d = .ok M) :
    ∃ N s, ReadFrom base d N ∧ Adjusted g N.sim s ∧ s.configure m pow = .ok M.sim ∧ M.name = N.name := by
  unfold Machine.init at h
  obtain ⟨N, hN, h⟩ := (bind_ok_iff _ _ _).mp h
  obtain ⟨s, hs, h⟩ := (bind_ok_iff _ _ _).mp h
  obtain ⟨s', hc, h⟩ := (bind_ok_iff _ _ _).mp h
  cases h
  exact ⟨N, s, ofInput_readFrom hN, adjust_ok hs, hc, rfl⟩

/-- **C90 (part).** A description loaded under the name of a built-in model gets the settings of that model that
descriptions do not carry: it can be scaled, its setpoint is fixed, it is a tank without heat source, and the first logic
that shuts its compressor off looks at the water entering the condenser, if so for the model. Under any other name, none
of these. Missing: the first two are also set if they were set before (`C90_left_over`), logics that look for large draws
(`C90_large_draw_lost`) and second heat sources that come first (`C90_first_lost`). -/
theorem C90_by_name_partial (m : Libm) (pow : ℚ → ℚ → ℚ) (b : Btwxt) (name : String) (base : Machine n k₀)
    (d : SimInput k) (M : Machine n k) (h : Machine.initFromJSON m pow b name base d = .ok M) :
    (M.sim.cfg.canScale = true ↔ base.sim.cfg.canScale = true ∨ BuiltIn name (·.canScale = true)) ∧
    (M.sim.cfg.setpointFixed = true ↔ base.sim.cfg.setpointFixed = true ∨ BuiltIn name (·.setpointFixed = true)) ∧
    (M.sim.cfg.isStorageTank = true ↔ BuiltIn name (·.isStorageTank = true)) ∧
    (BuiltIn name StopsByEnteringWater → ∃ j l ls, M.sim.cfg.compressorIndex = some j ∧
      (M.sim.cfg.src j).shutOff = l :: ls ∧ l.isEnteringWaterHighTempShutoff = true ∧
      (∀ l' ∈ ls, l'.isEnteringWaterHighTempShutoff = false) ∧
      ∀ i, i ≠ j → ∀ l' ∈ (M.sim.cfg.src i).shutOff, l'.isEnteringWaterHighTempShutoff = false) ∧
    (¬ BuiltIn name StopsByEnteringWater → ∀ i, ∀ l ∈ (M.sim.cfg.src i).shutOff,
      l.isEnteringWaterHighTempShutoff = false) := by
  obtain ⟨N, s, hr, ha, hc, -⟩ := init_parts h
  obtain ⟨k1, k2, k3, -, k5, ix, hix, k6⟩ := configure_keeps hc
  refine ⟨?_, ?_, ?_, fun hb => ?_, fun hb i l hl => ?_⟩
  · rw [k1, ha.canScale, hr.canScale, Bool.or_eq_true, decide_eq_true_eq, scalable_iff]
    rfl
  · rw [k2, ha.setpointFixed, hr.setpointFixed, Bool.or_eq_true, decide_eq_true_eq, fixed_iff]
    rfl
  · rw [k3, ha.isStorageTank, hr.isStorageTank, ← storage_iff]
    show decide (idOf name = idOf "StorageTank") = true ↔ _
    rw [decide_eq_true_eq]
  · have hg := (entering_iff name).mpr hb
    obtain ⟨j, l, ls, h1, h2, h3⟩ := ha.marked (by rintro e; simp [e] at hg) (by rintro e; simp [e] at hg)
    have hne : groupOf (idOf name) ≠ .largeDraw := by rintro e; simp [e] at hg
    refine ⟨j, mark (groupOf (idOf name)) l, ls, ?_, ?_, ?_, ?_, ?_⟩
    · rw [k6]
      refine compressor_last hix ?_
      rw [lastCondenser_congr ha.kind, ← hr.compressor]
      exact h1
    · rw [(k5 j).1, h3]
    · unfold mark
      rw [if_neg hne]
    · intro l' hl'
      exact (hr.plain j l' (by rw [h2]; exact List.mem_cons_of_mem _ hl')).1
    · intro i hi l' hl'
      rw [(k5 i).1, ha.same i (Or.inr (Or.inr (by rw [h1]; simpa using fun e => hi e.symm)))] at hl'
      exact (hr.plain i l' hl').1
  · have hg := fun x => hb ((entering_iff name).mp x)
    rw [(k5 i).1] at hl
    by_cases hs : groupOf (idOf name) = .other ∨ groupOf (idOf name) = .scalable ∨ N.sim.cfg.compressorIndex ≠ some i
    · rw [ha.same i hs] at hl
      exact (hr.plain i l hl).1
    · simp only [not_or, not_not] at hs
      obtain ⟨j, l0, ls, h1, h2, h3⟩ := ha.marked hs.1 hs.2.1
      have : j = i := Option.some.inj (h1.symm.trans hs.2.2)
      subst this
      rw [h3, List.mem_cons] at hl
      rcases hl with rfl | hl
      · have hgl : groupOf (idOf name) = .largeDraw := by
          revert hg
          cases e : groupOf (idOf name) <;> intro hg <;> first | rfl | exact absurd e hs.1 | exact absurd e hs.2.1 |
            exact (hg (by simp)).elim
        unfold mark
        rw [if_pos hgl]
        exact (hr.plain j l0 (by rw [h2]; exact List.mem_cons_self ..)).1
      · exact (hr.plain j l (by rw [h2]; exact List.mem_cons_of_mem _ hl)).1

theorem init_style {m : Libm} {pow : ℚ → ℚ → ℚ} {b : Btwxt} {g : PresetGroup} {base : Machine n k₀} {d : SimInput k}
    {M : Machine n k} (h : Machine.init m pow b g base d = .ok M) : M.style = base.style := by
  unfold Machine.init at h
  obtain ⟨N, hN, h⟩ := (bind_ok_iff _ _ _).mp h
  obtain ⟨s, -, h⟩ := (bind_ok_iff _ _ _).mp h
  obtain ⟨s', -, h⟩ := (bind_ok_iff _ _ _).mp h
  cases h
  unfold ofInput at hN
  split_ifs at hN with hn
  change N.style = _
  cases hd : d.system with
  | integrated x =>
    simp only [hd] at hN
    unfold readIntegrated at hN
    obtain ⟨qs, -, hN⟩ := (bind_ok_iff _ _ _).mp hN
    cases hN
    rfl
  | central x =>
    simp only [hd] at hN
    unfold readCentral at hN
    obtain ⟨qs, -, hN⟩ := (bind_ok_iff _ _ _).mp hN
    unfold setPorts at hN
    cases hj : (assemble base d x.tank qs).sim.cfg.compressorIndex with
    | none => rw [hj] at hN; cases hN
    | some j =>
      rw [hj] at hN
      obtain ⟨_, -, hN⟩ := (bind_ok_iff _ _ _).mp hN
      obtain ⟨_, -, hN⟩ := (bind_ok_iff _ _ _).mp hN
      cases hN
      rfl

instance (d : PerfData) : Decidable (d = .grid) :=
  match d with
  | .grid => isTrue rfl
  | .none => isFalse nofun
  | .polys _ => isFalse nofun
  | .singlePass _ => isFalse nofun
  | .multiPass _ => isFalse nofun

instance (p : Preset) : Decidable (HasTable p) := by unfold HasTable; infer_instance

/-- **C90.** How the tables of a description are interpolated follows from the name: as tables always were, if the built-in
model of this name has a table; otherwise, and under any other name, in the way that is closest to the curves the model
had. The one single-pass model with a table has a way of its own. -/
theorem C90_tables (m : Libm) (pow : ℚ → ℚ → ℚ) (b : Btwxt) (name : String) (base : Machine n k₀)
    (d : SimInput k) (M : Machine n k) (h : Machine.initFromJSON m pow b name base d = .ok M) :
    (M.style ≠ .other ↔ BuiltIn name HasTable) ∧ (M.style = .mitsubishi ↔ name = "Mitsubishi_QAHV_N136TAU_HPB_SP") := by
  rw [init_style h]
  change (styleOf (idOf name) ≠ .other ↔ _) ∧ (styleOf (idOf name) = .mitsubishi ↔ _)
  refine ⟨builtIn_iff name _ (fun i => styleOf i ≠ .other) (by decide +kernel) (by decide +kernel), ?_⟩
  rcases idOf_cases name with ⟨q, hq, rfl, e⟩ | ⟨e, hn⟩
  · rw [e]
    have : ∀ q ∈ Presets.models, styleOf q.2 = .mitsubishi ↔ q.1 = "Mitsubishi_QAHV_N136TAU_HPB_SP" := by decide +kernel
    exact this q hq
  · rw [e]
    refine iff_of_false (by decide +kernel) ?_
    rintro rfl
    exact hn (by decide +kernel)

/-- **C90.** The heat source named first by the description comes first; for the three scalable single-pass systems also
the first and the third. No other. -/
theorem C90_first (m : Libm) (pow : ℚ → ℚ → ℚ) (b : Btwxt) (name : String) (base : Machine n k₀)
    (d : SimInput k) (M : Machine n k) (h : Machine.initFromJSON m pow b name base d = .ok M) (i : Fin k) :
    (M.sim.cfg.src i).isVIP = true ↔ M.name i = namedFirst d ∨
      (name ∈ ["TamScalable_SP", "TamScalable_SP_2X", "TamScalable_SP_Half"] ∧ (i.val = 0 ∨ i.val = 2)) := by
  obtain ⟨N, s, hr, ha, hc, hn⟩ := init_parts h
  obtain ⟨-, -, -, -, k5, -⟩ := configure_keeps hc
  rw [(k5 i).2, ha.first i, hr.first i, decide_eq_true_eq, both_iff, hn]

/-- For the built-in models themselves, the heat sources that come first are one at most, but for the four scalable
systems, where they are the first and the third. -/
theorem C90_first_built_in : ∀ q ∈ Presets.table,
    if q.1 ∈ ["TamScalable_SP", "TamScalable_SP_2X", "TamScalable_SP_Half", "Scalable_MP"] then
      ∀ i, (q.2.src i).cfg.isVIP = true ↔ i.val = 0 ∨ i.val = 2
    else ∀ i j, (q.2.src i).cfg.isVIP = true → (q.2.src j).cfg.isVIP = true → i = j := by
  decide +kernel

/-- **C90 fails for the scalable multi-pass system**: whatever the description loaded under its name, of heat sources with
different names one at most comes first, while in the built-in model two do. -/
theorem C90_first_lost (m : Libm) (pow : ℚ → ℚ → ℚ) (b : Btwxt) (base : Machine n k₀)
    (d : SimInput k) (M : Machine n k) (h : Machine.initFromJSON m pow b "Scalable_MP" base d = .ok M)
    (hn : Function.Injective M.name) :
    (∀ i j, (M.sim.cfg.src i).isVIP = true → (M.sim.cfg.src j).isVIP = true → i = j) ∧
    BuiltIn "Scalable_MP" (fun p => ∃ i j, i ≠ j ∧ (p.src i).cfg.isVIP = true ∧ (p.src j).cfg.isVIP = true) := by
  have hs : "Scalable_MP" ∉ ["TamScalable_SP", "TamScalable_SP_2X", "TamScalable_SP_Half"] := by decide
  constructor
  · intro i j hi hj
    rw [C90_first m pow b _ base d M h] at hi hj
    rcases hi with hi | hi
    · rcases hj with hj | hj
      · exact hn (hi.trans hj.symm)
      · exact absurd hj.1 hs
    · exact absurd hi.1 hs
  · have : ∃ r ∈ Presets.table, r.1 = "Scalable_MP" ∧
        ∃ i j, i ≠ j ∧ (r.2.src i).cfg.isVIP = true ∧ (r.2.src j).cfg.isVIP = true := by decide +kernel
    obtain ⟨⟨x, p⟩, h1, rfl, h2⟩ := this
    exact ⟨p, h1, h2⟩

/-- **C90 fails for large draws**: the first logic that shuts the compressor off looks for large draws under the name
`GE2012_50` only, and no logic under any other name does. Of the built-in models three more have such a logic. -/
theorem C90_large_draw_lost (m : Libm) (pow : ℚ → ℚ → ℚ) (b : Btwxt) (name : String) (base : Machine n k₀)
    (d : SimInput k) (M : Machine n k) (h : Machine.initFromJSON m pow b name base d = .ok M) :
    ((∃ i, ∃ l ∈ (M.sim.cfg.src i).shutOff, l.description = "large draw") ↔ name = "GE2012_50") ∧
    (BuiltIn name StopsByLargeDraw ↔ name ∈ ["GE2012_50", "Generic1", "Generic2", "Generic3"]) := by
  obtain ⟨N, s, hr, ha, hc, hn⟩ := init_parts h
  obtain ⟨-, -, -, -, k5, -⟩ := configure_keeps hc
  constructor
  · constructor
    · rintro ⟨i, l, hl, hd⟩
      rw [(k5 i).1] at hl
      by_cases hs : groupOf (idOf name) = .other ∨ groupOf (idOf name) = .scalable ∨ N.sim.cfg.compressorIndex ≠ some i
      · rw [ha.same i hs] at hl
        exact absurd hd (hr.plain i l hl).2
      · simp only [not_or, not_not] at hs
        obtain ⟨j, l0, ls, h1, h2, h3⟩ := ha.marked hs.1 hs.2.1
        have : j = i := Option.some.inj (h1.symm.trans hs.2.2)
        subst this
        rw [h3, List.mem_cons] at hl
        rcases hl with rfl | hl
        · by_contra hne
          rw [← largeDraw_iff] at hne
          unfold mark at hd
          rw [if_neg hne] at hd
          exact (hr.plain j l0 (by rw [h2]; exact List.mem_cons_self ..)).2 hd
        · exact absurd hd (hr.plain j l (by rw [h2]; exact List.mem_cons_of_mem _ hl)).2
    · intro e
      have hg := (largeDraw_iff name).mpr e
      obtain ⟨j, l, ls, h1, h2, h3⟩ := ha.marked (by simp [hg]) (by simp [hg])
      refine ⟨j, mark (groupOf (idOf name)) l, ?_, ?_⟩
      · rw [(k5 j).1, h3]
        exact List.mem_cons_self ..
      · unfold mark
        rw [if_pos hg]
  · have h1 : ∀ r ∈ Presets.table, StopsByLargeDraw r.2 ↔ r.1 ∈ ["GE2012_50", "Generic1", "Generic2", "Generic3"] := by
      decide +kernel
    have h2 : ∀ x ∈ ["GE2012_50", "Generic1", "Generic2", "Generic3"], ∃ r ∈ Presets.table, r.1 = x := by decide +kernel
    constructor
    · rintro ⟨p, hp, hs⟩
      exact (h1 _ hp).mp hs
    · intro hm
      obtain ⟨⟨x, p⟩, hp, rfl⟩ := h2 name hm
      exact ⟨p, hp, (h1 _ hp).mpr hm⟩

/-- **C90 fails for the model loaded before**: unlike the initialisers, which start from the defaults (C81, C85), loading a
description leaves the length of the steps, the limit and state of the timer, the temperature of the room, the control by
the state of charge, the inlets, and the switches for mixing and conduction as they were; and a heater of fixed setpoint,
or one that can be scaled, stays such under every name. -/
theorem C90_left_over (m : Libm) (pow : ℚ → ℚ → ℚ) (b : Btwxt) (name : String) (base : Machine n k₀)
    (d : SimInput k) (M : Machine n k) (h : Machine.initFromJSON m pow b name base d = .ok M) :
    LeftOver base.sim M.sim ∧ (base.sim.cfg.setpointFixed = true → M.sim.cfg.setpointFixed = true) ∧
    (base.sim.cfg.canScale = true → M.sim.cfg.canScale = true) := by
  obtain ⟨h1, h2, -⟩ := C90_by_name_partial m pow b name base d M h
  refine ⟨?_, fun e => h2.mpr (Or.inl e), fun e => h1.mpr (Or.inl e)⟩
  obtain ⟨N, s, hr, ha, hc, hn⟩ := init_parts h
  obtain ⟨-, -, -, k4, -⟩ := configure_keeps hc
  have a := hr.left
  have c := ha.left
  exact ⟨k4.1.trans (c.1.trans a.1), k4.2.trans (c.2.trans a.2), k4.3.trans (c.3.trans a.3), k4.4.trans (c.4.trans a.4),
    k4.5.trans (c.5.trans a.5), k4.6.trans (c.6.trans a.6), k4.7.trans (c.7.trans a.7), k4.8.trans (c.8.trans a.8),
    k4.9.trans (c.9.trans a.9), k4.10.trans (c.10.trans a.10), k4.11.trans (c.11.trans a.11)⟩

/-- The sample heater, written and read again under some name, in a simulator that may have held a heater of fixed
setpoint before. -/
def reloaded (name : String) (fixed : Bool) : Res (Machine 3 2) := do
  let (d, _) ← Machine.sampleMachine.toInput
  let base := { Machine.sampleMachine with
    sim := { Machine.sampleMachine.sim with cfg := { Machine.sampleMachine.sim.cfg with setpointFixed := fixed } } }
  Machine.initFromJSON sampleLibm samplePow sampleBtwxt name base d

example : ∃ M, reloaded "Sanco83" false = .ok M ∧ M.sim.cfg.setpointFixed = true ∧
    ∃ i, ∃ l ∈ (M.sim.cfg.src i).shutOff, l.isEnteringWaterHighTempShutoff = true := by decide +kernel

example : ∃ M, reloaded "mine" false = .ok M ∧ M.sim.cfg.setpointFixed = false ∧
    ∀ i, (M.sim.cfg.src i).isVIP = false := by decide +kernel

example : ∃ M, reloaded "mine" true = .ok M ∧ M.sim.cfg.setpointFixed = true := by decide +kernel

example : ∃ M, reloaded "Scalable_MP" false = .ok M ∧ M.sim.cfg.canScale = true ∧ M.name 0 ≠ M.name 1 := by
  decide +kernel

example : ∃ M, reloaded "GE2012_50" false = .ok M ∧
    ∃ i, ∃ l ∈ (M.sim.cfg.src i).shutOff, l.description = "large draw" := by decide +kernel

end HPWH
