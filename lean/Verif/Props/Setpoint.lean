import Verif.Lemmas.Indices
import Verif.Props.Step

/-! # Derived values and setpoints (C35, C59) -/

namespace HPWH

open Spec
open _root_.HPWH.Units

variable {n k : ℕ}

/-! ## C59 -/

/-- What `calcDerivedValues` did. -/
theorem calcDerived_ok {m : Libm} {pow : ℚ → ℚ → ℚ} {s s' : Sim n k}
    (h : s.calcDerivedValues m pow = .ok s') : ∃ ix tank map, findIndices s.cfg.src = .ok ix ∧
      s.tank.calcSizeConstants pow = .ok tank ∧ mapResistances s.cfg.src = .ok map ∧
      s' = { s with
        tank := tank
        cfg := { s.cfg with
          src := fun i => { s.cfg.src i with
            shrinkageT := Sim.findShrinkage m.log (s.cfg.src i).heatDist (n + 1)
            lowestNode := ⟨(s.cfg.src i).heatDist.findLowestNode (n + 1),
              WDist.lowestLoop_lt _ _ _ _ (by omega) (by omega)⟩
            depressesTemperature := (s.cfg.src i).kind.isCompressor }
          compressorIndex := ix.compressor
          lowestElementIndex := ix.lowest
          vipIndex := ix.vip
          heightMap := map } } := by
  unfold Sim.calcDerivedValues at h
  obtain ⟨ix, h1, h⟩ := (bind_ok_iff _ _ _).mp h
  obtain ⟨t, h2, h⟩ := (bind_ok_iff _ _ _).mp h
  obtain ⟨mp, h3, h⟩ := (bind_ok_iff _ _ _).mp h
  cases h
  exact ⟨ix, t, mp, h1, h2, h3, rfl⟩

theorem IndexInv.congr {src src' : Fin k → SourceCfg n k} {pre : List (Fin k)} {a : Indices k}
    (hk : ∀ i, (src' i).kind = (src i).kind) (hd : ∀ i, (src' i).heatDist = (src i).heatDist)
    (hv : ∀ i, (src' i).isVIP = (src i).isVIP) (h : IndexInv src pre a) : IndexInv src' pre a := by
  refine ⟨?_, ?_, ?_, ?_, ?_, ?_⟩ <;> simp only [IsHeatPump, IsElement, hk, hd, hv]
  · exact h.comp_some
  · exact h.comp_none
  · exact h.vip_some
  · exact h.vip_none
  · exact h.low_some
  · exact h.low_none

theorem calcDerived_index {m : Libm} {pow : ℚ → ℚ → ℚ} {s s' : Sim n k}
    (h : s.calcDerivedValues m pow = .ok s') :
    (∃ ix, s'.cfg.compressorIndex = ix.compressor ∧ s'.cfg.lowestElementIndex = ix.lowest ∧
      s'.cfg.vipIndex = ix.vip ∧ IndexInv s'.cfg.src (List.finRange k) ix) ∧
    (∀ i, (s'.cfg.src i).heatDist = (s.cfg.src i).heatDist) ∧
    ∀ i, (s'.cfg.src i).depressesTemperature = (s'.cfg.src i).kind.isCompressor := by
  obtain ⟨ix, t, mp, h1, -, -, rfl⟩ := calcDerived_ok h
  exact ⟨⟨ix, rfl, rfl, rfl, IndexInv.congr (src := s.cfg.src) (fun _ => rfl) (fun _ => rfl)
      (fun _ => rfl) (findIndices_inv h1)⟩,
    fun _ => rfl, fun _ => rfl⟩

theorem mainHeatPump_iff {src : Fin k → SourceCfg n k} {a : Indices k}
    (inv : IndexInv src (List.finRange k) a) (i : Fin k) :
    a.compressor = some i ↔ ∃ c, MainHeatPump src i c := by
  constructor
  · intro h
    obtain ⟨-, ⟨c, hc⟩, h3⟩ := inv.comp_some i h
    exact ⟨c, hc, fun j hj => h3 j (List.mem_finRange j) hj⟩
  · rintro ⟨c, hc, hj⟩
    cases hcomp : a.compressor with
    | none => exact absurd ⟨c, hc⟩ (inv.comp_none hcomp i (List.mem_finRange i))
    | some l =>
      obtain ⟨-, h2, h3⟩ := inv.comp_some l hcomp
      exact congrArg some (le_antisymm (hj l h2) (h3 i (List.mem_finRange i) ⟨c, hc⟩))

theorem element_iff {src : Fin k → SourceCfg n k} {a : Indices k}
    (hv : ∀ i, (src i).heatDist.isValid = true)
    (inv : IndexInv src (List.finRange k) a) : a.lowest ≠ none ↔ ∃ i, IsElement (src i) := by
  constructor
  · intro h
    obtain ⟨i, hi⟩ := Option.ne_none_iff_exists'.mp h
    exact ⟨i, (inv.low_some i hi).2.1⟩
  · rintro ⟨i, hi⟩ hn
    obtain ⟨x, hx, -, hlt⟩ := WDist.lowestNormalizedHeight_valid (hv i)
    have := (inv.low_none hn).2 i (List.mem_finRange i) hi x hx
    linarith

/-- With valid heat distributions the simulator knows its main heat pump and whether it has elements. -/
theorem C59_known (m : Libm) (pow : ℚ → ℚ → ℚ) (s s' : Sim n k)
    (hv : ∀ i, (s.cfg.src i).heatDist.isValid = true) (h : s.calcDerivedValues m pow = .ok s') :
    Known s' := by
  obtain ⟨⟨ix, e1, e2, -, inv⟩, hd, -⟩ := calcDerived_index h
  exact ⟨fun i => by rw [e1]; exact mainHeatPump_iff inv i,
    by rw [e2]; exact element_iff (fun i => by rw [hd]; exact hv i) inv⟩

/-- C59: the values the simulator derives from its heat sources are the right ones, whatever the number
and order of the heat sources; nothing else about the heat sources changes. -/
theorem C59_derived (m : Libm) (pow : ℚ → ℚ → ℚ) (s s' : Sim n k)
    (hp : ∀ i, (s.cfg.src i).heatDist.Proper) (h : s.calcDerivedValues m pow = .ok s') :
    Derived s' ∧ ∀ i, s'.cfg.src i = { s.cfg.src i with
      shrinkageT := (s'.cfg.src i).shrinkageT
      lowestNode := (s'.cfg.src i).lowestNode
      depressesTemperature := (s'.cfg.src i).depressesTemperature } := by
  have hk := C59_known m pow s s' (fun i => (hp i).valid) h
  obtain ⟨⟨ix, e1, e2, e3, inv⟩, hd, hdep⟩ := calcDerived_index h
  have hp' : ∀ i, (s'.cfg.src i).heatDist.Proper := fun i => by rw [hd]; exact hp i
  have hh : ∀ i, ∃ x, (s'.cfg.src i).heatDist.lowestNormalizedHeight = .ok x ∧
      HeatsFrom (s'.cfg.src i).heatDist x := fun i => by
    obtain ⟨x, hx, -⟩ := WDist.lowestNormalizedHeight_valid (hp' i).valid
    exact ⟨x, hx, WDist.lowestNormalizedHeight_heats (hp' i) hx⟩
  refine ⟨⟨hk, fun i => ?_, fun i => ?_, fun i => ?_⟩, ?_⟩
  · rw [e2]
    refine ⟨fun hi => ?_, ?_⟩
    · obtain ⟨-, h2, h3, h4⟩ := inv.low_some i hi
      refine ⟨h2, fun j hj a b ha hb => ?_⟩
      obtain ⟨x, hx, hx'⟩ := hh j
      rw [HeatsFrom.unique ha (WDist.lowestNormalizedHeight_heats (hp' i) h3),
        HeatsFrom.unique hb hx']
      exact h4 j (List.mem_finRange j) hj _ hx
    · rintro ⟨hi, hj⟩
      cases hlow : ix.lowest with
      | none =>
        exact absurd ⟨i, hi⟩ (mt (element_iff (fun i => (hp' i).valid) inv).mpr (by simp [hlow]))
      | some l =>
        obtain ⟨-, h2, h3, h4⟩ := inv.low_some l hlow
        obtain ⟨x, hx, hx'⟩ := hh i
        have hl := WDist.lowestNormalizedHeight_heats (hp' l) h3
        obtain ⟨a1, a2⟩ := h4 i (List.mem_finRange i) hi _ hx
        obtain ⟨b1, b2⟩ := hj l h2 _ _ hx' hl
        congr 1
        rcases lt_trichotomy l i with hlt | heq | hlt
        · linarith [b2 hlt]
        · exact heq
        · linarith [a2 hlt]
  · rw [e3]
    refine ⟨fun hi => ?_, ?_⟩
    · obtain ⟨-, h2, h3⟩ := inv.vip_some i hi
      exact ⟨h2, fun j => h3 j (List.mem_finRange j)⟩
    · rintro ⟨hi, hj⟩
      cases hlow : ix.vip with
      | none => exact absurd hi (inv.vip_none hlow i (List.mem_finRange i))
      | some l =>
        obtain ⟨-, h2, h3⟩ := inv.vip_some l hlow
        exact congrArg some (le_antisymm (h3 i (List.mem_finRange i) hi.1 hi.2) (hj l h2.1 h2.2))
  · rw [hdep]
    change _ ↔ ∃ c, (s'.cfg.src i).kind = .condenser c
    cases (s'.cfg.src i).kind <;> simp [SourceKind.isCompressor]
  · obtain ⟨ix, t, mp, -, -, -, rfl⟩ := calcDerived_ok h
    exact fun _ => rfl

/-- The sample simulator with another element, before its values are derived: the heat pump is the first
heat source, the elements heat from 3/4 and from 1/4 of the height. -/
def sampleUnderived : Sim 3 3 where
  toPlant := samplePlant
  cfg :=
    { src := ![{ sampleControlled with backup := none, companion := none, followedBy := none },
               { sampleElement with
                  backup := none, companion := none, followedBy := none
                  heatDist := [⟨9, 0⟩, ⟨12, 1⟩], isVIP := true },
               { sampleElement with
                  backup := none, companion := none, followedBy := none
                  heatDist := [⟨1, 0⟩, ⟨2, 1⟩, ⟨4, 0⟩] }]
      minutesPerStep := 1
      doTempDepression := false
      maxDepression := 3
      timerLimitTOT := 60
      compressorIndex := none
      lowestElementIndex := none
      vipIndex := none
      setpointFixed := false
      isStorageTank := false
      canScale := true
      heightMap := [] }
  st := fun _ => ⟨false, false, 0, 0, 0⟩
  isHeating := false
  locationT := -500
  timerTOT := 0
  energyRemoved_kWh := 0
  standbyLosses_kWh := 0
  extraEnergyInput_kWh := 0

/-- A stand-in for the power function: its value on `[0, 1]` is in `[0, 1]`. -/
def samplePow : ℚ → ℚ → ℚ := fun _ _ => 1 / 2

example : (∀ i, (sampleUnderived.cfg.src i).heatDist.isValid = true) ∧
    (∀ i, ∀ p ∈ (sampleUnderived.cfg.src i).heatDist, 0 ≤ p.weight) ∧
    ∃ s', sampleUnderived.calcDerivedValues sampleLibm samplePow = .ok s' ∧
      s'.cfg.compressorIndex = some 0 ∧ s'.cfg.lowestElementIndex = some 2 ∧
      s'.cfg.vipIndex = some 1 ∧ (s'.cfg.src 2).lowestNode = 1 ∧
      s'.cfg.heightMap = [(2, 3), (1, 9)] := by
  decide +kernel

/-! ## C35 -/

theorem tempToC_ok {u : UnitTag} {x c : ℚ} : tempToC u x = .ok c ↔ celsius u x = some c := by
  cases u <;> simp [tempToC, celsius, F_TO_C, offsetF, FperC]
  constructor <;> intro h <;> linarith

theorem tempFromC_ok {u : UnitTag} {x c : ℚ} : tempFromC u c = .ok x ↔ celsius u x = some c := by
  cases u <;> simp [tempFromC, celsius, C_TO_F, offsetF, FperC, eq_comm] <;>
    constructor <;> intro h <;> linarith

theorem newSetpointPossible_iff {s : Sim n k} (hk : Known s) (x : ℚ) :
    s.newSetpointPossible x = true ↔ SetpointAllowed s x := by
  unfold Sim.newSetpointPossible SetpointAllowed
  by_cases hf : s.cfg.setpointFixed = true
  · simp [hf]
  · simp only [hf, Bool.false_eq_true, ↓reduceIte]
    cases hl : s.cfg.lowestElementIndex with
    | some i =>
      have he : ∃ i, IsElement (s.cfg.src i) := hk.element.mp (by simp [hl])
      have hk0 : k ≠ 0 := fun h => by subst h; exact he.choose.elim0
      simp only [decide_eq_true_eq, not_lt, he, forall_const, not_true_eq_false,
        IsEmpty.forall_iff, hk0, and_self, and_true, tolT]
      norm_num
    | none =>
      have he : ¬ ∃ i, IsElement (s.cfg.src i) := mt hk.element.mpr (by simp [hl])
      simp only [he, IsEmpty.forall_iff, not_false_eq_true, forall_const, true_and]
      cases hc : s.cfg.compressorIndex with
      | some j =>
        obtain ⟨c, hm⟩ := (hk.heatPump j).mp hc
        have hk0 : k ≠ 0 := fun h => by subst h; exact j.elim0
        have hkind : (s.cfg.src j).kind = .condenser c := hm.1
        simp only [hkind, decide_eq_true_eq, not_lt, hk0, IsEmpty.forall_iff, and_true]
        constructor
        · intro h i c' hm'
          have : i = j := le_antisymm (hm.2 i ⟨c', hm'.1⟩) (hm'.2 j ⟨c, hm.1⟩)
          subst this
          have hc' : (s.cfg.src i).kind = .condenser c' := hm'.1
          cases hkind.symm.trans hc'
          norm_num [tolT] at h ⊢; exact h
        · intro h
          have := h j c hm
          norm_num [tolT] at this ⊢; exact this
      | none =>
        have hno : ∀ i c, ¬ IsHeatPump (s.cfg.src i) c := by
          intro i c hi
          have hfin : ∃ i, (∃ c, IsHeatPump (s.cfg.src i) c) ∧
              ∀ j, (∃ c', IsHeatPump (s.cfg.src j) c') → j ≤ i := by
            classical
            obtain ⟨m, hm, hmax⟩ := Finset.exists_max_image
              (Finset.univ.filter fun i => ∃ c, IsHeatPump (s.cfg.src i) c) id
              ⟨i, Finset.mem_filter.mpr ⟨Finset.mem_univ _, c, hi⟩⟩
            exact ⟨m, (Finset.mem_filter.mp hm).2, fun j hj =>
              hmax j (Finset.mem_filter.mpr ⟨Finset.mem_univ _, hj⟩)⟩
          obtain ⟨m, ⟨c', hc'⟩, hmax⟩ := hfin
          have := (hk.heatPump m).mpr ⟨c', hc', hmax⟩
          rw [hc] at this; cases this
        have hk0 : k = 0 := by
          by_contra h0
          have i : Fin k := ⟨0, Nat.pos_of_ne_zero h0⟩
          cases hi : (s.cfg.src i).kind with
          | resistance p => exact he ⟨i, p, hi⟩
          | condenser c => exact hno i c hi
        simp only [hk0, forall_const]
        exact ⟨fun h => ⟨fun i c hm => absurd hm.1 (hno i c), h⟩, fun h => h.2⟩

/-- C35: a request for a setpoint succeeds exactly if it is in °C or °F and the temperature is allowed,
and then the setpoint is the requested temperature, is reported as requested, and nothing else has
changed. (A request that fails changes nothing: there is no new state.) -/
theorem C35_setpoint (s : Sim n k) (hk : Known s) (u : UnitTag) (x : ℚ) :
    ((∃ s', s.setSetpointIn u x = .ok s') ↔ ∃ c, celsius u x = some c ∧ SetpointAllowed s c) ∧
    ∀ s', s.setSetpointIn u x = .ok s' →
      (∃ c, celsius u x = some c ∧ s' = { s with setpoint := c }) ∧ s'.getSetpoint u = .ok x := by
  have key : ∀ s', s.setSetpointIn u x = .ok s' ↔
      ∃ c, celsius u x = some c ∧ SetpointAllowed s c ∧ s' = { s with setpoint := c } := by
    intro s'
    unfold Sim.setSetpointIn
    rw [bind_ok_iff]
    refine exists_congr fun c => ?_
    rw [tempToC_ok, Sim.setSetpoint, ← newSetpointPossible_iff hk]
    refine and_congr_right fun _ => ?_
    by_cases hp : s.newSetpointPossible c = true
    · simp [hp, eq_comm]
    · simp [hp]
  refine ⟨⟨fun ⟨s', h⟩ => ?_, fun ⟨c, h1, h2⟩ => ⟨_, (key _).mpr ⟨c, h1, h2, rfl⟩⟩⟩, fun s' h => ?_⟩
  · obtain ⟨c, h1, h2, -⟩ := (key s').mp h
    exact ⟨c, h1, h2⟩
  · obtain ⟨c, h1, -, rfl⟩ := (key s').mp h
    exact ⟨⟨c, h1, rfl⟩, tempFromC_ok.mpr h1⟩

/-- C35: the answer to whether a setpoint is possible is the outcome of requesting it, and the limit
reported with it is the limit of the simulator in the unit asked for. -/
theorem C35_possible (s : Sim n k) (hk : Known s) (u : UnitTag) (x m : ℚ) (b : Bool)
    (h : s.isNewSetpointPossible u x = .ok (b, m)) :
    (b = true ↔ ∃ s', s.setSetpointIn u x = .ok s') ∧
    ∀ l, SetpointLimit s l → celsius u m = some l := by
  unfold Sim.isNewSetpointPossible at h
  obtain ⟨c, h1, h⟩ := (bind_ok_iff _ _ _).mp h
  obtain ⟨m', h2, h⟩ := (bind_ok_iff _ _ _).mp h
  cases h
  rw [tempToC_ok] at h1
  rw [tempFromC_ok] at h2
  refine ⟨?_, fun l hl => ?_⟩
  · rw [newSetpointPossible_iff hk, (C35_setpoint s hk u x).1]
    constructor
    · exact fun h => ⟨c, h1, h⟩
    · rintro ⟨c', h3, h4⟩
      cases h1.symm.trans h3
      exact h4
  · rw [h2]
    congr 1
    unfold SetpointLimit at hl
    unfold Sim.maxAllowedSetpoint
    by_cases hf : s.cfg.setpointFixed = true
    · simp only [hf, ↓reduceIte] at hl ⊢
      exact hl.symm
    · simp only [hf, Bool.false_eq_true, ↓reduceIte] at hl ⊢
      rcases hl with ⟨he, rfl⟩ | ⟨he, i, c', hm, rfl⟩
      · obtain ⟨i, hi⟩ := Option.ne_none_iff_exists'.mp (hk.element.mpr he)
        simp [hi]
      · have hi : s.cfg.lowestElementIndex = none := by
          by_contra h0
          exact he (hk.element.mp h0)
        have hc := (hk.heatPump i).mpr ⟨c', hm⟩
        have hkind : (s.cfg.src i).kind = .condenser c' := hm.1
        simp [hi, hc, hkind]

/-- A caller that requests setpoints one after the other and carries on when a request fails. -/
def requestSetpoints (s : Sim n k) : List (UnitTag × ℚ) → Sim n k
  | [] => s
  | r :: rs =>
    match s.setSetpointIn r.1 r.2 with
    | .ok s' => requestSetpoints s' rs
    | .error _ => requestSetpoints s rs

/-- C35: whatever is requested, the setpoint stays allowed, and a fixed setpoint stays as it is. -/
theorem C35_history (s : Sim n k) (hk : Known s) (h : SetpointAllowed s s.setpoint)
    (rs : List (UnitTag × ℚ)) :
    SetpointAllowed (requestSetpoints s rs) (requestSetpoints s rs).setpoint ∧
    requestSetpoints s rs = { s with setpoint := (requestSetpoints s rs).setpoint } ∧
    (s.cfg.setpointFixed = true → (requestSetpoints s rs).setpoint = s.setpoint) := by
  induction rs generalizing s with
  | nil => exact ⟨h, rfl, fun _ => rfl⟩
  | cons r rs ih =>
    unfold requestSetpoints
    cases e : s.setSetpointIn r.1 r.2 with
    | error _ => exact ih s hk h
    | ok s' =>
      dsimp only
      obtain ⟨h1, h2⟩ := C35_setpoint s hk r.1 r.2
      obtain ⟨c, hc, ha⟩ := h1.mp ⟨s', e⟩
      obtain ⟨⟨c', hc', rfl⟩, -⟩ := h2 s' e
      cases hc.symm.trans hc'
      have ha' : SetpointAllowed ({ s with setpoint := c } : Sim n k) c := by
        unfold SetpointAllowed at ha ⊢
        by_cases hf : s.cfg.setpointFixed = true
        · simp only [hf, ↓reduceIte]
        · simpa only [hf, Bool.false_eq_true, ↓reduceIte] using ha
      obtain ⟨g1, g2, g3⟩ := ih { s with setpoint := c } ⟨hk.heatPump, hk.element⟩ ha'
      refine ⟨g1, g2, fun hf => (g3 hf).trans ?_⟩
      unfold SetpointAllowed at ha
      simpa only [hf, ↓reduceIte] using ha

theorem known_of_kinds (s : Sim n 2) (c0 : CondCfg) (p1 : ℚ)
    (k0 : (s.cfg.src 0).kind = .condenser c0) (k1 : (s.cfg.src 1).kind = .resistance p1)
    (e1 : s.cfg.compressorIndex = some 0) (e2 : s.cfg.lowestElementIndex = some 1) : Known s := by
  have n1 : ¬ ∃ c, IsHeatPump (s.cfg.src 1) c := by
    rintro ⟨c, hc⟩
    rw [IsHeatPump, k1] at hc
    cases hc
  have key : ∀ i : Fin 2, (∃ c, MainHeatPump s.cfg.src i c) ↔ i = 0 := by
    intro i
    constructor
    · rintro ⟨c, hc, -⟩
      by_contra h0
      have h1 : i = 1 := by omega
      rw [h1] at hc
      exact n1 ⟨c, hc⟩
    · rintro rfl
      refine ⟨c0, k0, fun j hj => ?_⟩
      by_contra h0
      have h1 : j = 1 := by omega
      rw [h1] at hj
      exact n1 hj
  refine ⟨fun i => ?_, ?_⟩
  · rw [key, e1, Option.some.injEq, eq_comm]
  · rw [e2]
    exact ⟨fun _ => ⟨1, p1, k1⟩, fun _ => by simp⟩

theorem sampleSim_known : Known sampleSim := known_of_kinds sampleSim _ _ rfl rfl rfl rfl

/-- 60 °C and 150 °F are accepted, 101 °C and 60 litres are not. -/
example : (∃ s', sampleSim.setSetpointIn .C 60 = .ok s' ∧ s'.setpoint = 60) ∧
    (∃ s', sampleSim.setSetpointIn .F 150 = .ok s' ∧ s'.setpoint = 590 / 9) := by
  decide +kernel

example : sampleSim.newSetpointPossible 101 = false ∧
    sampleSim.isNewSetpointPossible .F 150 = .ok (true, 212) ∧
    tempToC .L 60 = .error .error := by decide +kernel

example : SetpointAllowed sampleSim sampleSim.setpoint :=
  (newSetpointPossible_iff sampleSim_known _).mp (by decide +kernel)

example : (requestSetpoints sampleSim [(.C, 60), (.C, 120), (.F, 400), (.F, 122), (.GAL, 3)]).setpoint
    = 50 := by decide +kernel

/-- A storage tank takes any setpoint although the largest one reported with the answer is absolute
zero. -/
theorem C35_storage_tank_limit (s : Sim n 0) (h1 : s.cfg.setpointFixed = false)
    (h2 : s.cfg.isStorageTank = true) (h3 : s.cfg.lowestElementIndex = none)
    (h4 : s.cfg.compressorIndex = none) (x : ℚ) :
    s.isNewSetpointPossible .C x = .ok (true, -27315 / 100) := by
  simp [Sim.isNewSetpointPossible, tempToC, tempFromC, Sim.newSetpointPossible, h1, h2, h3, h4,
    Sim.maxAllowedSetpoint, bind, Except.bind, pure, Except.pure]

end HPWH
