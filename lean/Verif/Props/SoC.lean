import Verif.Props.Ports

/-! # State of charge (C38, C39) -/

namespace HPWH

open Spec

variable {n k : ℕ}

/-! ## C38 -/

/-- State of charge: heat above the mains temperature in the water that is warm enough to be useful, as a
share of that of a tank wholly at `full` °C. -/
def Spec.stateOfCharge (T : Nodes n ℚ) (mains useful full : ℚ) : ℚ :=
  (∑ i, if useful ≤ T i then T i - mains else 0) / (((n : ℚ) + 1) * (full - mains))

/-- C38: with mains water below the useful temperature and that not above the full temperature, the state
of charge is found and is what it should be. -/
theorem C38_state_of_charge (T : Nodes n ℚ) (mains useful full : ℚ) (h1 : mains < useful)
    (h2 : useful ≤ full) :
    calcSoCFraction T mains useful full = .ok (stateOfCharge T mains useful full) := by
  have hd : (0 : ℚ) < useful - mains := by linarith
  have hf : (0 : ℚ) < full - mains := by linarith
  have hn : (0 : ℚ) < (n : ℚ) + 1 := by positivity
  have hsum : Plant.chargeSum T mains useful =
      (∑ i, if useful ≤ T i then T i - mains else 0) / (useful - mains) := by
    unfold Plant.chargeSum
    rw [Finset.sum_div]
    refine Finset.sum_congr rfl fun i _ => ?_
    by_cases h : T i < useful
    · rw [if_pos h, if_neg (not_le.mpr h), zero_div]
    · rw [if_neg h, if_pos (not_lt.mp h)]
  unfold calcSoCFraction chargePerNode
  simp only [not_lt.mpr h2, hd.ne', hsum, if_false, false_or]
  rw [if_neg (by positivity)]
  congr 1
  unfold stateOfCharge
  field_simp

/-- C38: the state of charge is zero for a tank wholly below the useful temperature, one for a tank wholly
at the full temperature, in between for a tank not hotter than that, and does not fall when any part of
the tank is warmed. -/
theorem C38_normalised (mains useful full : ℚ) (h1 : mains < useful) (h2 : useful ≤ full)
    (T T' : Nodes n ℚ) (x x' : ℚ) (hx : calcSoCFraction T mains useful full = .ok x)
    (hx' : calcSoCFraction T' mains useful full = .ok x') :
    ((∀ i, T i < useful) → x = 0) ∧ ((∀ i, T i = full) → x = 1) ∧ 0 ≤ x ∧
    ((∀ i, T i ≤ full) → x ≤ 1) ∧ ((∀ i, T i ≤ T' i) → x ≤ x') := by
  rw [C38_state_of_charge T _ _ _ h1 h2] at hx
  rw [C38_state_of_charge T' _ _ _ h1 h2] at hx'
  cases hx
  cases hx'
  have hf : (0 : ℚ) < full - mains := by linarith
  have hn : (0 : ℚ) < (n : ℚ) + 1 := by positivity
  have hden : (0 : ℚ) < ((n : ℚ) + 1) * (full - mains) := by positivity
  unfold stateOfCharge
  refine ⟨fun h => ?_, fun h => ?_, ?_, fun h => ?_, fun h => ?_⟩
  · rw [Finset.sum_eq_zero fun i _ => if_neg (not_le.mpr (h i)), zero_div]
  · have : ∀ i, (if useful ≤ T i then T i - mains else 0) = full - mains := fun i => by
      rw [h i, if_pos h2]
    rw [Finset.sum_congr rfl fun i _ => this i]
    simp only [Finset.sum_const, Finset.card_univ, Fintype.card_fin, nsmul_eq_mul]
    push_cast
    field_simp
  · refine div_nonneg (Finset.sum_nonneg fun i _ => ?_) hden.le
    split <;> linarith
  · rw [div_le_one hden]
    calc ∑ i, (if useful ≤ T i then T i - mains else 0) ≤ ∑ _i : Fin (n + 1), (full - mains) := by
          refine Finset.sum_le_sum fun i _ => ?_
          have := h i
          split <;> linarith
      _ = ((n : ℚ) + 1) * (full - mains) := by
          simp only [Finset.sum_const, Finset.card_univ, Fintype.card_fin, nsmul_eq_mul]
          push_cast
          ring
  · refine div_le_div_of_nonneg_right (Finset.sum_le_sum fun i _ => ?_) hden.le
    have := h i
    by_cases a : useful ≤ T i
    · rw [if_pos a, if_pos (a.trans this)]; linarith
    · rw [if_neg a]; split <;> linarith

example : calcSoCFraction (![20, 45, 50, 60] : Nodes 3 ℚ) 10 45 60 = .ok (125 / 200) := by
  decide +kernel

/-- C38: the state of charge that the controls see after an update is that of the present tank, with the
constant mains temperature if one is used and the latest inlet temperature otherwise. -/
theorem C38_update (p : Plant n) (c : SoCParams) (hc : p.socControl = some c) (mains : ℚ)
    (hm : mains = if c.useConstantMains then c.constantMains else p.inletT)
    (h1 : mains < c.tempMinUseful) (h2 : c.tempMinUseful ≤ p.setpoint) :
    p.updateSoC = .ok { p with soc := stateOfCharge p.tank.nodeTs mains c.tempMinUseful p.setpoint } := by
  unfold Plant.updateSoC
  have : p.mainsT c.useConstantMains c.constantMains = mains := by rw [hm]; rfl
  simp only [hc, this, C38_state_of_charge p.tank.nodeTs _ _ _ h1 h2]

/-- Finding: with mains water at the useful temperature the state of charge is undefined (division by
zero). The library only checks a constant mains temperature, and only when the controls are set up. -/
theorem C38_warm_mains_undefined (T : Nodes n ℚ) (useful full : ℚ) :
    ∃ e, calcSoCFraction T useful useful full = .error e := by
  unfold calcSoCFraction
  cases chargePerNode useful useful full with
  | error e => exact ⟨e, rfl⟩
  | ok c => exact ⟨.nan, by simp⟩

/-! ## C39 -/

/-- A caller that sets target states of charge one after the other and carries on when one is refused. -/
def setTargets (s : Sim n k) : List ℚ → Sim n k
  | [] => s
  | x :: xs =>
    match s.setTargetSoC x with
    | .ok s' => setTargets s' xs
    | .error _ => setTargets s xs

/-- The target in force after the requests: the last one that is not negative. -/
def Spec.lastTarget (initial : ℚ) : List ℚ → ℚ
  | [] => initial
  | x :: xs => lastTarget (if x < 0 then initial else x) xs

/-- The controls of all heat sources are state-of-charge controls with this target and hysteresis, apart
from shut-offs when hot water enters. -/
def Spec.SoCControlled (s : Sim n k) (target hyst useful : ℚ) (constantMains : Bool) (mains : ℚ) : Prop :=
  s.socControl = some ⟨useful, constantMains, mains⟩ ∧
  ∀ i, (s.cfg.src i).turnOn = [Sim.turnOnSoC target hyst useful constantMains mains] ∧
    (∀ l ∈ (s.cfg.src i).shutOff, l.isEnteringWaterHighTempShutoff = true ∨
      l = Sim.shutOffSoC target hyst useful constantMains mains) ∧
    Sim.shutOffSoC target hyst useful constantMains mains ∈ (s.cfg.src i).shutOff

theorem switchToSoC_controlled {s s' : Sim n k} {u : UnitTag} {target hyst minUseful : ℚ} {b : Bool}
    {mains : ℚ} (h : s.switchToSoC u target hyst minUseful b mains = .ok s') :
    ∃ useful cold, celsius u minUseful = some useful ∧ celsius u mains = some cold ∧ cold < useful ∧
      SoCControlled s' target hyst useful b cold := by
  unfold Sim.switchToSoC at h
  obtain ⟨c, -, h⟩ := (bind_ok_iff _ _ _).mp h
  obtain ⟨-, h⟩ := ite_error_ok h
  obtain ⟨useful, h1, h⟩ := (bind_ok_iff _ _ _).mp h
  obtain ⟨cold, h2, h⟩ := (bind_ok_iff _ _ _).mp h
  obtain ⟨h3, h⟩ := ite_error_ok h
  cases h
  refine ⟨useful, cold, tempToC_ok.mp h1, tempToC_ok.mp h2, not_le.mp h3, rfl, fun i => ⟨rfl, ?_, ?_⟩⟩
  · intro l hl
    rcases List.mem_append.mp hl with hl | hl
    · exact Or.inl (List.mem_filter.mp hl).2
    · exact Or.inr (List.mem_singleton.mp hl)
  · exact List.mem_append_right _ (List.mem_singleton_self _)

theorem setTargets_controlled {s : Sim n k} {target hyst useful : ℚ} {b : Bool} {mains : ℚ}
    (h : SoCControlled s target hyst useful b mains) (xs : List ℚ) :
    SoCControlled (setTargets s xs) (lastTarget target xs) hyst useful b mains := by
  induction xs generalizing s target with
  | nil => exact h
  | cons x xs ih =>
    unfold setTargets lastTarget Sim.setTargetSoC
    rw [if_neg (by rw [h.1]; simp)]
    by_cases hx : x < 0
    · simp only [hx, ↓reduceIte]
      exact ih h
    · simp only [hx, ↓reduceIte]
      apply ih
      refine ⟨h.1, fun i => ?_⟩
      obtain ⟨a, a', a''⟩ := h.2 i
      refine ⟨?_, ?_, ?_⟩
      · simp only [a]; rfl
      · intro l hl
        obtain ⟨l0, hl0, rfl⟩ := List.mem_map.mp hl
        rcases a' l0 hl0 with e | e
        · left; simp only [e, ↓reduceIte]
        · right; subst e; rfl
      · exact List.mem_map.mpr ⟨_, a'', rfl⟩

/-- C39: after switching to state-of-charge controls with a non-negative hysteresis, and after any
sequence of new targets, in every state of the tank: a heat source is asked to start exactly when the
state of charge is below the target in force less the hysteresis, its state-of-charge shut-off fires
exactly when it is above the target plus the hysteresis, and never both. (`p.haveInletT` or a constant
mains temperature: otherwise the state of charge is not known and the simulation fails.) -/
theorem C39_hysteresis (s s1 : Sim n k) (u : UnitTag) (target hyst minUseful : ℚ) (b : Bool)
    (mains : ℚ) (h : s.switchToSoC u target hyst minUseful b mains = .ok s1) (hh : 0 ≤ hyst)
    (xs : List ℚ) (i : Fin k) (p : Plant n) (hp : p.haveInletT = true ∨ b = true) :
    ((∃ l ∈ ((setTargets s1 xs).cfg.src i).turnOn, Fires l p) ↔ p.soc < lastTarget target xs - hyst) ∧
    ((∃ l ∈ ((setTargets s1 xs).cfg.src i).shutOff, l.isEnteringWaterHighTempShutoff = false ∧
      Fires l p) ↔ lastTarget target xs + hyst < p.soc) ∧
    ¬ ((∃ l ∈ ((setTargets s1 xs).cfg.src i).turnOn, Fires l p) ∧
      ∃ l ∈ ((setTargets s1 xs).cfg.src i).shutOff, l.isEnteringWaterHighTempShutoff = false ∧
        Fires l p) := by
  obtain ⟨useful, cold, -, -, -, hc⟩ := switchToSoC_controlled h
  obtain ⟨e1, e2, e3⟩ := (setTargets_controlled hc xs).2 i
  have on : (∃ l ∈ ((setTargets s1 xs).cfg.src i).turnOn, Fires l p) ↔
      p.soc < lastTarget target xs - hyst := by
    rw [e1]
    simp only [List.mem_singleton, exists_eq_left, Fires, Reads, threshold, Passes, Sim.turnOnSoC]
    constructor
    · rintro ⟨v, ⟨rfl, -⟩, h⟩; linarith
    · intro h; exact ⟨_, ⟨rfl, hp⟩, by linarith⟩
  have off : (∃ l ∈ ((setTargets s1 xs).cfg.src i).shutOff, l.isEnteringWaterHighTempShutoff = false ∧
      Fires l p) ↔ lastTarget target xs + hyst < p.soc := by
    constructor
    · rintro ⟨l, hl, hf, v, hr, hv⟩
      rcases e2 l hl with e | rfl
      · rw [e] at hf; cases hf
      · simp only [Reads, threshold, Passes, Sim.shutOffSoC] at hr hv
        rw [← hr.1]; exact hv
    · intro h
      exact ⟨_, e3, rfl, p.soc, ⟨rfl, hp⟩, h⟩
  refine ⟨on, off, ?_⟩
  rw [on, off]
  rintro ⟨h1, h2⟩
  linarith

example : ∃ s1, sampleCentral.switchToSoC .F (3 / 4) (1 / 20) 110 true 65 = .ok s1 ∧
    (setTargets s1 [1 / 2, -1, 4 / 5]).socControl ≠ none ∧
    ((setTargets s1 [1 / 2, -1, 4 / 5]).cfg.src 0).turnOn.length = 1 := by decide +kernel

/-- Finding: a negative hysteresis is accepted when the controls are switched, and then both decisions
fire at the target itself. -/
theorem C39_negative_hysteresis_accepted :
    ∃ s1, sampleCentral.switchToSoC .C (1 / 2) (-1 / 10) 45 true 10 = .ok s1 ∧
      (∀ l ∈ (s1.cfg.src 0).turnOn, l.holds { samplePlant with soc := 1 / 2 } = .ok true) ∧
      (∀ l ∈ (s1.cfg.src 0).shutOff, l.holds { samplePlant with soc := 1 / 2 } = .ok true) ∧
      (s1.cfg.src 0).turnOn ≠ [] ∧ (s1.cfg.src 0).shutOff ≠ [] := by
  decide +kernel

end HPWH
