import Verif.Spec.Presets
import Verif.Model.PresetNames
import Verif.Props.Works
import Verif.Props.PolyPositive

/-! # The built-in models can be used -/

namespace HPWH

open Spec
open _root_.HPWH.Units

variable {n k n₀ k₀ : ℕ}

/-! ## Heat sources -/

theorem source_cfg (grid : ℚ → ℚ → ℚ → Perf) (d : SourceData n k) :
    d.source grid = { d.cfg with kind := (d.source grid).kind } := by
  unfold SourceData.source
  split <;> rfl

theorem source_heatPump {grid : ℚ → ℚ → ℚ → Perf} {d : SourceData n k} {c : CondCfg}
    (h : IsHeatPump (d.source grid) c) :
    ∃ c0, d.cfg.kind = .condenser c0 ∧ c = { c0 with evaluate := d.perf.make grid c0 } := by
  unfold IsHeatPump SourceData.source at h
  split at h
  · rename_i w e
    rw [e] at h; cases h
  · rename_i c0 e
    simp only [SourceKind.condenser.injEq] at h
    exact ⟨c0, e, h.symm⟩

theorem source_element {grid : ℚ → ℚ → ℚ → Perf} {d : SourceData n k} {w : ℚ}
    (h : (d.source grid).kind = .resistance w) : d.cfg.kind = .resistance w := by
  unfold SourceData.source at h
  split at h
  · exact h
  · cases h

namespace Preset

/-! ## Acceptance -/

/-- The heat sources of a model in some simulator, for checking them. -/
def bare (p : Preset) : Sim p.n p.k := sampleSim.fresh fun i => (p.src i).cfg

/-- A heat pump is not shut off below where it is turned on. -/
def orderOk (p : Preset) (i : Fin p.k) : Bool :=
  match (p.src i).cfg.kind with
  | .resistance _ => true
  | .condenser _ =>
    match Sim.aquaLoop p.bare.toPlant (p.src i).cfg.turnOn 1, Sim.useLoop p.bare.toPlant (p.src i).cfg.shutOff 1 with
    | .ok a, .ok u => decide (1 - (if |a - (1 - u)| < tolMin then 1 - a + tolMin else u) ≤ a)
    | _, _ => false

/-- The setpoint can be reached. -/
def setpointOk (p : Preset) (i : Fin p.k) : Bool :=
  p.setpointFixed || match (p.src i).cfg.kind with
    | .resistance _ => decide (p.setpoint ≤ 100)
    | .condenser c => decide (p.setpoint ≤ c.maxSetpoint - c.hotSideOffset)

/-- Checks the numbers of a model. -/
def accepts (p : Preset) : Bool :=
  decide (0 < p.volume_L) && (match p.resize with
    | none => true
    | some gal => decide (0 < gal) && !p.volumeFixed) &&
  decide (0 ≤ p.UA) && decide (p.heatExchangerEffectiveness ≤ 1) && (decide (0 < p.k) || p.isStorageTank) &&
  decide (∀ i, p.bare.sourceOk i = true ∧ p.orderOk i = true ∧ p.setpointOk i = true ∧
    ∀ q ∈ (p.src i).cfg.heatDist, 0 ≤ q.weight)

/-- What the check says. -/
structure Accepts (p : Preset) : Prop where
  volume : 0 < p.volume_L
  resize : ∀ gal, p.resize = some gal → 0 < gal ∧ p.volumeFixed = false
  loss : 0 ≤ p.UA
  exchanger : p.heatExchangerEffectiveness ≤ 1
  heated : 0 < p.k ∨ p.isStorageTank = true
  source : ∀ i, AcceptableSource (fun i => (p.src i).cfg) i
  order : ∀ i, p.orderOk i = true
  setpoint : ∀ i, p.setpointOk i = true
  weights : ∀ i, ∀ q ∈ (p.src i).cfg.heatDist, 0 ≤ q.weight

theorem accepts_iff {p : Preset} (h : p.accepts = true) : p.Accepts := by
  unfold accepts at h
  simp only [Bool.and_eq_true, decide_eq_true_eq, Bool.or_eq_true] at h
  obtain ⟨⟨⟨⟨⟨h1, h2⟩, h3⟩, h4⟩, h5⟩, h6⟩ := h
  refine ⟨h1, fun gal e => ?_, h3, h4, h5, fun i => (sourceOk_iff p.bare i).mp (h6 i).1, fun i => (h6 i).2.1,
    fun i => (h6 i).2.2.1, fun i => (h6 i).2.2.2⟩
  rw [e] at h2
  simpa using h2

theorem source_acceptable {p : Preset} (h : p.Accepts) (grid : ℚ → ℚ → ℚ → Perf) (i : Fin p.k) :
    AcceptableSource (fun i => (p.src i).source grid) i := by
  have ha := h.source i
  have e := fun i => source_cfg grid (p.src i)
  have e1 : ∀ i, ((p.src i).source grid).turnOn = (p.src i).cfg.turnOn := fun i => by rw [e]
  have e2 : ∀ i, ((p.src i).source grid).backup = (p.src i).cfg.backup := fun i => by rw [e]
  have e3 : ((p.src i).source grid).shutOff = (p.src i).cfg.shutOff := by rw [e]
  have e4 : ((p.src i).source grid).heatDist = (p.src i).cfg.heatDist := by rw [e]
  have e5 : ((p.src i).source grid).airflowFreedom = (p.src i).cfg.airflowFreedom := by rw [e]
  refine ⟨?_, ?_, ?_, ?_, ?_, ?_, ?_, ?_⟩
  · rw [e1]
    refine ha.starts.imp id ?_
    rintro ⟨j, ⟨hb, hb'⟩, hj⟩
    exact ⟨j, ⟨by rw [e2]; exact hb, fun j' h' => by rw [e2]; exact hb' j' h'⟩, by rw [e1]; exact hj⟩
  · rw [e1]; exact ha.turnOn
  · rw [e3]; exact ha.shutOff
  · rw [e4]; exact ha.heat
  · rw [e5]; exact ha.airflow
  · intro c hc hd
    obtain ⟨c0, k0, rfl⟩ := source_heatPump hc
    exact ha.defrost c0 k0 hd
  · intro c hc hd
    obtain ⟨c0, k0, rfl⟩ := source_heatPump hc
    rw [e3]
    exact ha.external c0 k0 hd
  · intro c hc hd
    obtain ⟨c0, k0, rfl⟩ := source_heatPump hc
    exact ha.pump c0 k0 hd

/-- The tank after its size has been set. -/
theorem sized_ok {p : Preset} (h : p.Accepts) (pow : ℚ → ℚ → ℚ) (hp : PowPos pow) (grid : ℚ → ℚ → ℚ → Perf)
    (base : Sim n₀ k₀) :
    ∃ t : Tank p.n, p.sized pow grid base = .ok { p.sim grid base with tank := t } ∧
      SameButSizes { (p.sim grid base).tank with volume_L := t.volume_L, UA := t.UA } t ∧
      0 < t.volume_L ∧ 0 ≤ t.UA ∧
      (t.volume_L = match p.resize with
        | none => p.volume_L
        | some gal => gal * (378541 / 100000)) ∧
      (p.resize = none → t.UA = p.UA) ∧
      t.UA * tankSurfaceArea pow p.volume_L = p.UA * tankSurfaceArea pow t.volume_L := by
  have hV : 0 < (p.sim grid base).tank.volume_L := h.volume
  have hA := tankSurfaceArea_pos hp h.volume
  unfold sized
  cases e : p.resize with
  | none => exact ⟨(p.sim grid base).tank, rfl, rfl, h.volume, h.loss, rfl, fun _ => rfl, rfl⟩
  | some gal =>
    obtain ⟨h0, hf⟩ := h.resize gal e
    obtain ⟨a, b⟩ := C41_resize pow hp (p.sim grid base) hV .GAL gal false
    obtain ⟨s', hs'⟩ := a.mpr ⟨gal * (378541 / 100000), rfl, by positivity, fun hh => (by
      have : p.volumeFixed = true := hh
      rw [hf] at this; cases this)⟩
    obtain ⟨b1, -, ⟨A, A', hA1, hA2, p1, p2, hUA⟩, b4, b5, b6⟩ := b s' hs'
    cases hA1
    cases hA2
    have hv : s'.tank.volume_L = gal * (378541 / 100000) := by
      have : litres .GAL gal = some (gal * (378541 / 100000)) := rfl
      rw [this] at b1
      exact (Option.some.inj b1).symm
    have hUA : s'.tank.UA / tankSurfaceArea pow s'.tank.volume_L = p.UA / tankSurfaceArea pow p.volume_L := hUA
    rw [div_eq_div_iff p2.ne' hA.ne'] at hUA
    refine ⟨s'.tank, by rw [← b6]; exact hs', b5, by rw [hv]; positivity, ?_, hv, fun hh => (by cases hh), hUA⟩
    have : 0 ≤ s'.tank.UA * tankSurfaceArea pow p.volume_L := by
      rw [hUA]; exact mul_nonneg h.loss p2.le
    exact nonneg_of_mul_nonneg_left this hA

/-- The simulator that is completed by deriving values, with the tank `t`. -/
theorem fill_eq (p : Preset) (grid : ℚ → ℚ → ℚ → Perf) (base : Sim n₀ k₀) (t : Tank p.n) :
    p.fill { p.sim grid base with tank := t } =
      { p.sim grid base with tank := { t with nodeTs := fun _ => p.initial.getD p.setpoint } } := by
  unfold fill
  cases p.initial <;> rfl

theorem initLegacy_ok {p : Preset} (h : p.Accepts) (m : Libm) (pow : ℚ → ℚ → ℚ) (hp : PowPos pow)
    (grid : ℚ → ℚ → ℚ → Perf) (base : Sim n₀ k₀) : ∃ s, p.initLegacy m pow grid base = .ok s := by
  obtain ⟨t, ht, hsb, hV, hUA, -⟩ := sized_ok h pow hp grid base
  unfold initLegacy
  rw [ht]
  simp only [bind, Except.bind]
  rw [fill_eq]
  refine finish_total m pow hp _ hV h.heated (source_acceptable h grid) ?_ hUA ?_ rfl ?_
  · unfold SetpointAllowed
    split_ifs with hfix
    · rfl
    have hfix : p.setpointFixed ≠ true := hfix
    have hs : ∀ i, _ := h.setpoint
    simp only [setpointOk, hfix, Bool.false_or] at hs
    refine ⟨?_, ?_, ?_⟩
    · rintro ⟨i, w, hw⟩
      have := hs i
      rw [source_element hw] at this
      have : p.setpoint ≤ 100 := by simpa using this
      show p.setpoint ≤ _
      linarith
    · rintro - i c ⟨hc, -⟩
      obtain ⟨c0, k0, rfl⟩ := source_heatPump hc
      have := hs i
      rw [k0] at this
      have : p.setpoint ≤ c0.maxSetpoint - c0.hotSideOffset := by simpa using this
      show p.setpoint ≤ c0.maxSetpoint - c0.hotSideOffset + 1 / 10 ^ 9
      linarith
    · intro e
      exact h.heated.resolve_left (by omega)
  · show t.heatExchangerEffectiveness ≤ 1
    rw [hsb]; exact h.exchanger
  · rintro j c ⟨hc, -⟩
    obtain ⟨c0, k0, rfl⟩ := source_heatPump hc
    have ho := h.order j
    unfold orderOk at ho
    rw [k0] at ho
    simp only at ho
    have e1 : ((p.src j).source grid).turnOn = (p.src j).cfg.turnOn := by rw [source_cfg]
    have e2 : ((p.src j).source grid).shutOff = (p.src j).cfg.shutOff := by rw [source_cfg]
    show ∃ a u, Sim.aquaLoop _ ((p.src j).source grid).turnOn 1 = .ok a ∧
      Sim.useLoop _ ((p.src j).source grid).shutOff 1 = .ok u ∧ _
    rw [e1, e2, aquaLoop_congr p.bare.toPlant, useLoop_congr p.bare.toPlant]
    split at ho
    · rename_i a u ha hu
      exact ⟨a, u, ha, hu, by simpa using ho⟩
    · cases ho

end Preset

/-- All models pass. -/
theorem table_accepts : ∀ q ∈ Presets.table, q.2.accepts = true := by decide +kernel

/-- **C85.** Every built-in model can be built, on any simulator. -/
theorem C85_accepted (m : Libm) (pow : ℚ → ℚ → ℚ) (hp : PowPos pow) (grid : ℚ → ℚ → ℚ → Perf) (base : Sim n₀ k₀)
    (q : String × Preset) (hq : q ∈ Presets.table) : ∃ s, q.2.initLegacy m pow grid base = .ok s :=
  Preset.initLegacy_ok (Preset.accepts_iff (table_accepts q hq)) m pow hp grid base

namespace Preset

/-- **C85**, for a model that passes the check: what is delivered. -/
theorem initLegacy_listed {p : Preset} (h : p.Accepts) (m : Libm) (pow : ℚ → ℚ → ℚ) (hp : PowPos pow)
    (grid : ℚ → ℚ → ℚ → Perf) (base : Sim n₀ k₀) (s : Sim p.n p.k) (hs : p.initLegacy m pow grid base = .ok s) :
    AsListed p grid s ∧ Derived s ∧ Acceptable s ∧ Sized pow s.tank ∧ (p.resize = none → s.tank.UA = p.UA) ∧
    s.tank.UA * tankSurfaceArea pow p.volume_L = p.UA * tankSurfaceArea pow s.tank.volume_L := by
  obtain ⟨t, ht, hsb, hV, hUA, hvol, hnone, harea⟩ := sized_ok h pow hp grid base
  unfold initLegacy at hs
  rw [ht] at hs
  simp only [bind, Except.bind] at hs
  rw [fill_eq] at hs
  obtain ⟨h1, h2, h3, h4, h5, h6⟩ := finish_same hp hV hs
  obtain ⟨s1, c1, c2, c3⟩ := finish_ok hs
  have hprop : ∀ i, ((p.src i).source grid).heatDist.Proper := fun i => by
    rw [source_cfg]
    exact ⟨(isValid_spec _).mpr (h.source i).heat, h.weights i⟩
  have hd := (C59_derived m pow _ s1 hprop c1).1
  have hk := C59_known m pow _ s1 (fun i => (hprop i).valid) c1
  have hacc := (C61_accepts_iff s1 hk).mp c2
  have ed : Derived s := by
    rw [c3]
    exact ⟨⟨hd.heatPump, hd.element⟩, hd.lowest, hd.priority, hd.cools⟩
  have eacc : Acceptable s := by
    rw [c3]
    exact ⟨hacc.heated, hacc.source, hacc.setpoint, hacc.UA, hacc.exchanger, hacc.order⟩
  have eV : s.tank.volume_L = t.volume_L := by rw [h2]
  have eUA : s.tank.UA = t.UA := by rw [h2]
  refine ⟨⟨?_, ?_, ?_, ?_, h3, ?_, ?_, ?_, ?_, ?_, ?_, ?_⟩, ed, eacc, h1, ?_, ?_⟩
  · rw [h5]; rfl
  · rw [eV]; exact hvol
  · intro j; rw [h2]
  · rw [h2]; show t.hasHeatExchanger = _
    rw [hsb]; rfl
  · intro i; rw [h5]; rfl
  · intro i; rw [h5]; rfl
  · have : ¬ s.isHeating = true := by
      rw [h6]; rintro ⟨i, hi⟩; cases hi
    simpa using this
  · rw [h4]; rfl
  · rw [h5]; rfl
  · rw [h5]; rfl
  · rw [h4]; rfl
  · rw [eUA]; exact hnone
  · rw [eUA, eV]; exact harea

end Preset

/-- **C85.** What is delivered is the model listed; the heat loss per surface is that listed, also where the model then
sets another size. -/
theorem C85_delivered (m : Libm) (pow : ℚ → ℚ → ℚ) (hp : PowPos pow) (grid : ℚ → ℚ → ℚ → Perf) (base : Sim n₀ k₀)
    (q : String × Preset) (hq : q ∈ Presets.table) (s : Sim q.2.n q.2.k)
    (hs : q.2.initLegacy m pow grid base = .ok s) :
    AsListed q.2 grid s ∧ Derived s ∧ Acceptable s ∧ Sized pow s.tank ∧ (q.2.resize = none → s.tank.UA = q.2.UA) ∧
    s.tank.UA * tankSurfaceArea pow q.2.volume_L = q.2.UA * tankSurfaceArea pow s.tank.volume_L :=
  Preset.initLegacy_listed (Preset.accepts_iff (table_accepts q hq)) m pow hp grid base s hs

/-! ## Names and numbers -/

namespace Presets

theorem names_nodup : (models.map (·.1)).Nodup := by decide +kernel

theorem numbers_nodup : (models.map (·.2)).Nodup := by decide +kernel

theorem numbers_known : ∀ q ∈ models, q.2 ≠ -1 := by decide +kernel

theorem table_nodup : (table.map (·.1)).Nodup := by decide +kernel

theorem table_named : ∀ q ∈ table, q.1 ∈ models.map (·.1) := by decide +kernel

/-- In a list without repeated keys, searching finds the entry. -/
theorem find_iff {α β : Type} [DecidableEq β] (f : α → β) : ∀ {l : List α} (_ : (l.map f).Nodup) (b : β) (a : α),
    (l.find? fun x => f x = b) = some a ↔ a ∈ l ∧ f a = b
  | [], _, b, a => by simp
  | x :: l, h, b, a => by
    rw [List.map_cons, List.nodup_cons] at h
    by_cases hx : f x = b
    · rw [List.find?_cons_of_pos (by simpa using hx)]
      constructor
      · intro e; cases e; exact ⟨List.mem_cons_self .., hx⟩
      · rintro ⟨hm, ha⟩
        rcases List.mem_cons.mp hm with rfl | hm
        · rfl
        · exact absurd (List.mem_map.mpr ⟨a, hm, ha.trans hx.symm⟩) h.1
    · rw [List.find?_cons_of_neg (by simpa using hx), find_iff f h.2 b a]
      constructor
      · rintro ⟨h1, h2⟩; exact ⟨List.mem_cons_of_mem _ h1, h2⟩
      · rintro ⟨hm, ha⟩
        rcases List.mem_cons.mp hm with rfl | hm
        · exact absurd ha hx
        · exact ⟨hm, ha⟩

theorem numberFromName_iff (x : String) (i : ℤ) : numberFromName x = some i ↔ (x, i) ∈ models := by
  unfold numberFromName findByName
  cases e : models.find? fun q => q.1 = x with
  | none =>
    simp only [ne_eq, not_true_eq_false, if_false, reduceCtorEq, false_iff]
    intro h
    rw [(find_iff (·.1) names_nodup x (x, i)).mpr ⟨h, rfl⟩] at e
    cases e
  | some q =>
    obtain ⟨hq, rfl⟩ := (find_iff (·.1) names_nodup x q).mp e
    have := numbers_known q hq
    simp only [ne_eq, this, not_false_eq_true, if_true, Option.some.injEq]
    constructor
    · rintro rfl; exact hq
    · intro h
      have := (find_iff (·.1) names_nodup q.1 (q.1, i)).mpr ⟨h, rfl⟩
      rw [e] at this
      rw [Option.some.inj this]

theorem nameFromNumber_iff (x : String) (i : ℤ) : nameFromNumber i = some x ↔ (x, i) ∈ models := by
  unfold nameFromNumber findById
  cases e : models.find? fun q => q.2 = i with
  | none =>
    simp only [ne_eq, not_true_eq_false, if_false, reduceCtorEq, false_iff]
    intro h
    rw [(find_iff (·.2) numbers_nodup i (x, i)).mpr ⟨h, rfl⟩] at e
    cases e
  | some q =>
    obtain ⟨hq, rfl⟩ := (find_iff (·.2) numbers_nodup i q).mp e
    have := numbers_known q hq
    simp only [ne_eq, this, not_false_eq_true, if_true, Option.some.injEq]
    constructor
    · rintro rfl; exact hq
    · intro h
      have := (find_iff (·.2) numbers_nodup q.2 (x, q.2)).mpr ⟨h, rfl⟩
      rw [e] at this
      rw [Option.some.inj this]

theorem branch_iff (i : ℤ) (p : Preset) : branch i = some p ↔ ∃ x, (x, i) ∈ models ∧ (x, p) ∈ table := by
  unfold branch
  cases e : models.find? fun q => q.2 = i with
  | none =>
    simp only [reduceCtorEq, false_iff]
    rintro ⟨x, h, -⟩
    rw [(find_iff (·.2) numbers_nodup i (x, i)).mpr ⟨h, rfl⟩] at e
    cases e
  | some q =>
    obtain ⟨hq, rfl⟩ := (find_iff (·.2) numbers_nodup i q).mp e
    simp only [Option.map_eq_some_iff]
    constructor
    · rintro ⟨r, hr, rfl⟩
      obtain ⟨h1, h2⟩ := (find_iff (·.1) table_nodup q.1 r).mp hr
      exact ⟨q.1, hq, by rw [← h2]; exact h1⟩
    · rintro ⟨x, h1, h2⟩
      have := (find_iff (·.2) numbers_nodup q.2 (x, q.2)).mpr ⟨h1, rfl⟩
      rw [e] at this
      rw [Option.some.inj this]
      exact ⟨(x, p), (find_iff (·.1) table_nodup x (x, p)).mpr ⟨h2, rfl⟩, rfl⟩

end Presets

open Presets

/-- **C85.** Names and numbers of models belong together one to one: the number of a name is the number whose name it
is, for every text and every number. -/
theorem C85_names (x : String) (i : ℤ) : numberFromName x = some i ↔ nameFromNumber i = some x := by
  rw [numberFromName_iff, nameFromNumber_iff]

/-- **C85.** Exactly the names in the table can be initialised, and give the model of that name. -/
theorem C85_by_name (m : Libm) (pow : ℚ → ℚ → ℚ) (hp : PowPos pow) (grid : ℚ → ℚ → ℚ → Perf) (base : Sim n₀ k₀)
    (x : String) (p : Preset) :
    (∃ s, initByName m pow grid base x = .ok ⟨p, s⟩) ↔ (x, p) ∈ table := by
  have key : (∃ s, initByName m pow grid base x = .ok ⟨p, s⟩) ↔ ∃ i, (x, i) ∈ models ∧ branch i = some p := by
    unfold initByName
    cases e : numberFromName x with
    | none =>
      refine iff_of_false (by rintro ⟨s, h⟩; cases h) ?_
      rintro ⟨i, h, -⟩
      rw [← numberFromName_iff, e] at h
      cases h
    | some i =>
      have hi := (numberFromName_iff x i).mp e
      have hiff : (∃ i, (x, i) ∈ models ∧ branch i = some p) ↔ branch i = some p := by
        constructor
        · rintro ⟨j, h1, h2⟩
          rw [← numberFromName_iff, e] at h1
          cases h1
          exact h2
        · exact fun h => ⟨i, hi, h⟩
      rw [hiff]
      cases e2 : branch i with
      | none =>
        have e3 : initByNumber m pow grid base i = .error .error := by unfold initByNumber; rw [e2]
        simp [e3]
      | some p' =>
        obtain ⟨x', -, ht⟩ := (branch_iff i p').mp e2
        obtain ⟨s', hs'⟩ := C85_accepted m pow hp grid base (x', p') ht
        have e3 : initByNumber m pow grid base i = .ok ⟨p', s'⟩ := by
          unfold initByNumber
          rw [e2]
          simp only at hs'
          simp only [hs', Except.map]
        simp only [e3, Except.ok.injEq, Option.some.injEq]
        constructor
        · rintro ⟨s, h⟩; cases h; rfl
        · rintro rfl; exact ⟨s', rfl⟩
  rw [key]
  constructor
  · rintro ⟨i, h1, h2⟩
    obtain ⟨x', h3, h4⟩ := (branch_iff i p).mp h2
    have e1 := (nameFromNumber_iff x i).mpr h1
    have e2 := (nameFromNumber_iff x' i).mpr h3
    rw [e1] at e2
    cases e2
    exact h4
  · intro h
    obtain ⟨⟨x', i⟩, h1, h2⟩ := List.mem_map.mp (table_named (x, p) h)
    cases h2
    exact ⟨i, h1, (branch_iff i p).mpr ⟨_, h1, h⟩⟩

/-- **C85.** Of all named models, these five have no branch: `initLegacy` ends with an error for them. -/
theorem C85_missing : (models.map (·.1)).filter (fun x => x ∉ table.map (·.1)) =
    ["BradfordWhiteAeroThermRE2HP50", "BradfordWhiteAeroThermRE2HP65", "BradfordWhiteAeroThermRE2HP80",
      "IceAirccHPWH275D", "IceAirccHPWH550D"] := by decide +kernel

end HPWH
