import Verif.Model.Copy
import Verif.Props.HeatSource

/-! # C53: copying -/

namespace HPWH

open Spec

variable {n k : ℕ}

namespace Spec

/-- The settings and outputs of a unit that assignment is meant to carry over and does. -/
def SameCopied (x y : UnitObj) : Prop :=
  x.setpoint = y.setpoint ∧ x.isHeating = y.isHeating ∧ x.condenserInlet = y.condenserInlet ∧
  x.condenserOutlet = y.condenserOutlet ∧ x.externalVolumeHeated = y.externalVolumeHeated ∧
  x.energyRemoved_kWh = y.energyRemoved_kWh ∧ x.standbyLosses_kWh = y.standbyLosses_kWh ∧
  x.doTempDepression = y.doTempDepression ∧ x.locationT = y.locationT ∧
  x.timerLimitTOT = y.timerLimitTOT ∧ x.usesSoCLogic = y.usesSoCLogic

end Spec

namespace World

theorem unit_apply (w : World n k) (u : ℕ) (o : Op n) {v : ℕ} (h : v ≠ u) :
    (w.apply u o).unit v = w.unit v := by
  cases o with
  | setSource i x =>
    simp only [apply]
    split <;> rfl
  | _ => simp [apply, Function.update_of_ne h]

theorem pointers_apply (w : World n k) (u : ℕ) (o : Op n) (v : ℕ) :
    ((w.apply u o).unit v).tank = (w.unit v).tank ∧ ((w.apply u o).unit v).sources = (w.unit v).sources := by
  by_cases h : v = u
  · subst h
    cases o with
    | setSource i x =>
      simp only [apply]
      split <;> exact ⟨rfl, rfl⟩
    | _ => simp [apply]
  · rw [unit_apply w u o h]
    exact ⟨rfl, rfl⟩

theorem pointers_applyAll (ops : List (ℕ × Op n)) : ∀ (w : World n k) (v : ℕ),
    ((w.applyAll ops).unit v).tank = (w.unit v).tank ∧
      ((w.applyAll ops).unit v).sources = (w.unit v).sources := by
  induction ops with
  | nil => intro w v; exact ⟨rfl, rfl⟩
  | cons o ops ih =>
    intro w v
    obtain ⟨h1, h2⟩ := ih (w.apply o.1 o.2) v
    obtain ⟨h3, h4⟩ := pointers_apply w o.1 o.2 v
    exact ⟨h1.trans h3, h2.trans h4⟩

theorem assign_unit (w : World n k) {a b : ℕ} (h : b ≠ a) :
    (w.assign b a).unit a = w.unit a ∧ ((w.assign b a).unit b).tank = (w.unit a).tank ∧
      ((w.assign b a).unit b).sources = (w.unit a).sources ∧
      SameCopied ((w.assign b a).unit b) (w.unit a) := by
  unfold assign
  rw [if_neg h]
  refine ⟨by simp [Function.update_of_ne (Ne.symm h)], by simp, by simp, ?_⟩
  simp [SameCopied]

/-- **C53 (partial).** The copy has the original's setpoint, heating flag, outputs, room temperature,
top-off limit and kind of control; whatever is later done to other units, the settings the original holds
itself stay as they are.

Missing from the full claim: the step length, the inlet temperature, the fixed-setpoint and scaling flags are
not copied (`C53_settings_missed`), and tank and heat sources are not copied but shared
(`C53_tank_shared`, `C53_sources_taken`). -/
theorem C53_settings_partial (w : World n k) {a b : ℕ} (h : b ≠ a) :
    SameCopied ((w.assign b a).unit b) (w.unit a) ∧
    ∀ ops : List (ℕ × Op n), (∀ o ∈ ops, o.1 ≠ a) →
      ((w.assign b a).applyAll ops).unit a = w.unit a := by
  refine ⟨(assign_unit w h).2.2.2, fun ops hops => ?_⟩
  have key : ∀ (ops : List (ℕ × Op n)), (∀ o ∈ ops, o.1 ≠ a) → ∀ v : World n k,
      (v.applyAll ops).unit a = v.unit a := by
    intro ops
    induction ops with
    | nil => intro _ v; rfl
    | cons o ops ih =>
      intro ho v
      have h1 := ih (fun o ho' => ho o (List.mem_cons_of_mem _ ho')) (v.apply o.1 o.2)
      have h2 := unit_apply v o.1 o.2 (Ne.symm (ho o List.mem_cons_self))
      exact h1.trans h2
  rw [key ops hops, (assign_unit w h).1]

/-- **C53, finding.** A copy does not have a tank of its own: after any further history of the two (or of any
other units) both report the same temperature of every node. -/
theorem C53_tank_shared (w : World n k) {a b : ℕ} (h : b ≠ a) (ops : List (ℕ × Op n)) (i : Fin (n + 1)) :
    ((w.assign b a).applyAll ops).nodeT a i = ((w.assign b a).applyAll ops).nodeT b i := by
  unfold nodeT
  rw [(pointers_applyAll ops _ a).1, (pointers_applyAll ops _ b).1, (assign_unit w h).2.1,
    (assign_unit w h).1]

/-- **C53, finding.** So the claim is false of every configuration: giving the copy's tank new temperatures
gives them to the original. -/
theorem C53_not_independent (w : World n k) {a b : ℕ} (h : b ≠ a) (T : Tank n) (i : Fin (n + 1)) :
    ((w.assign b a).apply b (.setTank T)).nodeT a i = T.nodeTs i := by
  have e1 := (pointers_apply (w.assign b a) b (.setTank T) a).1
  unfold nodeT
  rw [e1, (assign_unit w h).1]
  simp only [apply]
  rw [(assign_unit w h).2.1, Function.update_self]

theorem adopt_spec (b : ℕ) : ∀ (js : List ℕ) (src : ℕ → SourceObj n k) (j : ℕ),
    adopt b src js j = if j ∈ js then { src j with owner := b } else src j := by
  intro js
  induction js with
  | nil => intro src j; rfl
  | cons i js ih =>
    intro src j
    rw [adopt, ih]
    by_cases hij : j = i
    · subst hij
      by_cases hj : j ∈ js
      · rw [if_pos hj, if_pos List.mem_cons_self, Function.update_self]
      · rw [if_neg hj, if_pos List.mem_cons_self, Function.update_self]
    · rw [Function.update_of_ne hij]
      simp [hij]

/-- **C53, finding.** After copying, the heat sources of the *original* consult the copy's setpoint, while
their heating logics still consult the original's. -/
theorem C53_sources_taken (w : World n k) {a b : ℕ} (h : b ≠ a) {j : ℕ} (hj : j ∈ (w.unit a).sources)
    (hl : (w.source j).logicOwner = a) :
    (w.assign b a).shutsOff j =
      if ((w.assign b a).nodeT a 0) ≥ ((w.assign b a).unit b).setpoint then .ok true
      else anyHolds ((w.assign b a).plant a) (w.source j).cfg.shutOff := by
  have e : (w.assign b a).source j = { w.source j with owner := b } := by
    unfold assign
    rw [if_neg h]
    change adopt b w.source (w.unit a).sources j = _
    rw [adopt_spec, if_pos hj]
  have ht : (w.assign b a).nodeT a 0 = (w.assign b a).nodeT b 0 := C53_tank_shared w h [] 0
  unfold shutsOff
  rw [e]
  dsimp only
  rw [hl, ht]
  rfl

end World

/-! ## Witnesses -/

def sampleUnit : UnitObj :=
  { tank := 0, sources := [0], isHeating := false, setpoint := 50, condenserInlet := 0, condenserOutlet := 0,
    externalVolumeHeated := 0, energyRemoved_kWh := 0, standbyLosses_kWh := 0, extraEnergyInput_kWh := 0,
    doTempDepression := false, locationT := -500, timerLimitTOT := 60, timerTOT := 0, usesSoCLogic := false,
    socControl := none, soc := 1, inletT := 10, haveInletT := true, setpointFixed := true, canScale := false,
    minutesPerStep := 5, compressorIndex := -1, lowestElementIndex := 0, vipIndex := 0 }

/-- Two units of their own; unit 0 has a five-minute step and a fixed setpoint, unit 1 a step of one minute. -/
def sampleWorld : World 3 2 where
  unit := fun u => if u = 0 then sampleUnit
    else { sampleUnit with tank := 1, sources := [], minutesPerStep := 1, setpointFixed := false,
                           inletT := -1, haveInletT := false }
  tank := fun t => ⟨t, warmTank⟩
  source := fun _ => ⟨0, 0, sampleElement, sampleState⟩

/-- **C53, finding.** The copy keeps its own step length, setpoint flag and inlet temperature. -/
theorem C53_settings_missed : ∃ (w : World 3 2) (a b : ℕ), b ≠ a ∧
    ((w.assign b a).unit b).minutesPerStep ≠ (w.unit a).minutesPerStep ∧
    ((w.assign b a).unit b).setpointFixed ≠ (w.unit a).setpointFixed ∧
    ((w.assign b a).unit b).inletT ≠ (w.unit a).inletT ∧
    ((w.assign b a).unit b).haveInletT ≠ (w.unit a).haveInletT :=
  ⟨sampleWorld, 0, 1, by decide +kernel⟩

/-- **C53, finding.** Lowering the setpoint of the copy makes a heat source of the original shut off. -/
theorem C53_copy_switches_original : ∃ (w : World 3 2) (a b j : ℕ) (x : ℚ), b ≠ a ∧
    j ∈ ((w.assign b a).unit a).sources ∧ (w.assign b a).shutsOff j = .ok false ∧
    ((w.assign b a).apply b (.setSetpoint x)).shutsOff j = .ok true ∧
    ((w.assign b a).apply b (.setSetpoint x)).unit a = w.unit a :=
  ⟨sampleWorld, 0, 1, 0, 5, by decide, by decide, by decide +kernel, by decide +kernel, by decide +kernel⟩

/-! ## Tanks and heat sources assigned by themselves -/

/-- **C53 (partial).** Assigning a tank to a tank copies volume, UA, fittings UA, temperatures, mixing and the
presence of a heat exchanger, and the tanks are independent. Missing: conduction, inlet heights, the heat
exchanger's effectiveness and the constants derived from the size (`C53_tank_assignment_misses`). -/
theorem C53_tank_assignment_partial (t s : Tank n) :
    (t.assign s).volume_L = s.volume_L ∧ (t.assign s).volumeFixed = s.volumeFixed ∧
    (t.assign s).UA = s.UA ∧ (t.assign s).fittingsUA = s.fittingsUA ∧ (t.assign s).nodeTs = s.nodeTs ∧
    (t.assign s).mixesOnDraw = s.mixesOnDraw ∧
    (t.assign s).mixBelowFractionOnDraw = s.mixBelowFractionOnDraw ∧
    (t.assign s).doInversionMixing = s.doInversionMixing ∧
    (t.assign s).hasHeatExchanger = s.hasHeatExchanger := ⟨rfl, rfl, rfl, rfl, rfl, rfl, rfl, rfl, rfl⟩

/-- A tank of twice the size of the sample tank, without conduction and with a higher inlet. -/
def largeTank : Tank 3 :=
  { warmTank with
    volume_L := 2 * warmTank.volume_L, nodeVolume_L := 2 * warmTank.nodeVolume_L,
    nodeCp := 2 * warmTank.nodeCp, doConduction := !warmTank.doConduction,
    inletHeight := warmTank.inletHeight + 1 }

/-- **C53, finding.** A tank assigned from a tank of another size has the volume of the one and the node
volume of the other: its four nodes no longer make up its volume. -/
theorem C53_tank_assignment_misses : ∃ t s : Tank 3,
    4 * t.nodeVolume_L = t.volume_L ∧ 4 * s.nodeVolume_L = s.volume_L ∧
    4 * (t.assign s).nodeVolume_L ≠ (t.assign s).volume_L ∧
    (t.assign s).doConduction ≠ s.doConduction ∧ (t.assign s).inletHeight ≠ s.inletHeight :=
  ⟨warmTank, largeTank, by decide +kernel⟩

/-- **C53.** Heat sources can be assigned exactly when the source is not linked to others; what is specific to
the type is left to the type. -/
theorem C53_source_assignment (t s : SourceCfg n k) :
    (s.backup = none ∧ s.companion = none ∧ s.followedBy = none → t.assign s = .ok { s with kind := t.kind }) ∧
    (¬ (s.backup = none ∧ s.companion = none ∧ s.followedBy = none) → t.assign s = .error .error) := by
  constructor
  · rintro ⟨h1, h2, h3⟩
    unfold SourceCfg.assign
    rw [if_neg (by simp [h1, h2, h3])]
    obtain ⟨⟩ := s
    simp only at h1 h2 h3
    subst h1 h2 h3
    rfl
  · intro h
    unfold SourceCfg.assign
    rw [if_pos]
    by_contra hc
    apply h
    simpa [not_or] using hc

/-- **C53.** A condenser assigned from another gives the same performance for the same temperatures, unless
defrost or the low-temperature limit of the water temperature is set: those, and the standby power, are not
assigned. -/
theorem C53_condenser_assignment (t s : CondCfg) :
    t.assign s = { s with doDefrost := t.doDefrost, maxOutT := t.maxOutT, maxOutAirT := t.maxOutAirT,
                          standbyPower_kW := t.standbyPower_kW } := rfl

end HPWH
