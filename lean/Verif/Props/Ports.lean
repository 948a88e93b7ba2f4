import Verif.Props.Setpoint
import Verif.Props.External

/-! # Ports given by fractional height (C40), tank size (C41), units (C42) -/

namespace HPWH

open Spec
open _root_.HPWH.Units

variable {n k : ℕ}

/-! ## C40 -/

/-- Node `j` of `N` equal nodes is the one at the fraction `f` of the height; the top of the tank belongs
to the top node. -/
def Spec.NodeAt (N : ℕ) (f : ℚ) (j : ℕ) : Prop :=
  j < N ∧ (j : ℚ) / N ≤ f ∧ (f < ((j : ℚ) + 1) / N ∨ (f = 1 ∧ j + 1 = N))

/-- C40: exactly the fractions in `[0, 1]` are accepted, and the node selected is the existing node at
that height. -/
theorem C40_fraction (N : ℕ) (hN : 0 < N) (f : ℚ) (j : ℕ) :
    nodeFromFraction N f = .ok j ↔ 0 ≤ f ∧ f ≤ 1 ∧ NodeAt N f j := by
  have hN' : (0 : ℚ) < N := by exact_mod_cast hN
  unfold nodeFromFraction NodeAt
  by_cases hf : f > 1 ∨ f < 0
  · simp only [hf, ↓reduceIte, reduceCtorEq, false_iff]
    rintro ⟨h1, h2, -⟩
    rcases hf with h | h <;> linarith
  · simp only [hf, ↓reduceIte, Except.ok.injEq]
    have h1 : f ≤ 1 := not_lt.mp fun h => hf (Or.inl h)
    have h0 : 0 ≤ f := not_lt.mp fun h => hf (Or.inr h)
    simp only [h0, h1, true_and]
    have hx : (0 : ℚ) ≤ N * f := by positivity
    have hfl : (⌊(N : ℚ) * f⌋₊ : ℚ) ≤ N * f := Nat.floor_le hx
    have hfu : (N : ℚ) * f < ⌊(N : ℚ) * f⌋₊ + 1 := Nat.lt_floor_add_one _
    generalize ⌊(N : ℚ) * f⌋₊ = q at hfl hfu ⊢
    have hqN : q ≤ N := by
      have : (q : ℚ) ≤ N := by nlinarith
      exact_mod_cast this
    by_cases hq : q = N
    · subst hq
      have hf1 : f = 1 := by
        refine le_antisymm h1 ?_
        by_contra hlt
        nlinarith [not_le.mp hlt]
      subst hf1
      simp only [↓reduceIte]
      constructor
      · rintro rfl
        refine ⟨by omega, ?_, Or.inr ⟨trivial, by omega⟩⟩
        rw [div_le_one hN']
        exact_mod_cast Nat.sub_le _ _
      · rintro ⟨hj, -, h | h⟩
        · rw [lt_div_iff₀ hN'] at h
          have : q < j + 1 := by
            have : (q : ℚ) < (j : ℚ) + 1 := by linarith
            exact_mod_cast this
          omega
        · omega
    · simp only [hq, ↓reduceIte]
      constructor
      · rintro rfl
        refine ⟨by omega, ?_, Or.inl ?_⟩
        · rw [div_le_iff₀ hN']; linarith
        · rw [lt_div_iff₀ hN']; linarith
      · rintro ⟨hj, ha, hb⟩
        rw [div_le_iff₀ hN'] at ha
        have h3 : j ≤ q := by
          have : (j : ℚ) < q + 1 := by linarith
          have : j < q + 1 := by exact_mod_cast this
          omega
        rcases hb with hb | ⟨rfl, -⟩
        · rw [lt_div_iff₀ hN'] at hb
          have : (q : ℚ) < j + 1 := by linarith
          have : q < j + 1 := by exact_mod_cast this
          omega
        · exfalso
          apply hq
          have : (N : ℚ) < q + 1 := by linarith
          have : N < q + 1 := by exact_mod_cast this
          omega

example : NodeAt 12 (1 / 2) 6 ∧ NodeAt 12 1 11 ∧ NodeAt 12 0 0 := by
  unfold NodeAt; norm_num

/-- C40: a higher fraction never selects a lower node; 0 is the bottom node and 1 the top node. -/
theorem C40_monotone (N : ℕ) (hN : 0 < N) :
    (∀ f g i j, f ≤ g → nodeFromFraction N f = .ok i → nodeFromFraction N g = .ok j → i ≤ j) ∧
    nodeFromFraction N 0 = .ok 0 ∧ nodeFromFraction N 1 = .ok (N - 1) := by
  have hN' : (0 : ℚ) < N := by exact_mod_cast hN
  refine ⟨fun f g i j hfg hi hj => ?_, ?_, ?_⟩
  · obtain ⟨-, hf1, hi1, hi2, hi3⟩ := (C40_fraction N hN f i).mp hi
    obtain ⟨-, hg1, hj1, hj2, hj3⟩ := (C40_fraction N hN g j).mp hj
    rw [div_le_iff₀ hN'] at hi2
    rcases hj3 with h | ⟨rfl, h⟩
    · rw [lt_div_iff₀ hN'] at h
      have : (i : ℚ) < j + 1 := by nlinarith
      have : i < j + 1 := by exact_mod_cast this
      omega
    · omega
  · rw [C40_fraction N hN]
    refine ⟨le_rfl, zero_le_one, hN, by simp, Or.inl (by simp; exact hN)⟩
  · rw [C40_fraction N hN]
    refine ⟨zero_le_one, le_rfl, by omega, ?_, Or.inr ⟨rfl, by omega⟩⟩
    rw [div_le_one hN']
    exact_mod_cast Nat.sub_le _ _

/-- C40: the inlets of the tank. A request succeeds exactly for a fraction in `[0, 1]`; it moves that
inlet to the node at that height and changes nothing else. -/
theorem C40_inlets (s s' : Sim n k) (f : ℚ) :
    (s.setInletByFraction f = .ok s' ↔ ∃ j, (0 ≤ f ∧ f ≤ 1 ∧ NodeAt (n + 1) f j) ∧
      s' = { s with tank := { s.tank with inletHeight := j } }) ∧
    (s.setInlet2ByFraction f = .ok s' ↔ ∃ j, (0 ≤ f ∧ f ≤ 1 ∧ NodeAt (n + 1) f j) ∧
      s' = { s with tank := { s.tank with inlet2Height := j } }) := by
  constructor
  · simp only [Sim.setInletByFraction, Tank.setInletByFraction, bind_ok_iff, pure, Except.pure,
      Except.ok.injEq, C40_fraction (n + 1) (Nat.succ_pos n)]
    constructor
    · rintro ⟨t, ⟨j, hj, rfl⟩, rfl⟩; exact ⟨j, hj, rfl⟩
    · rintro ⟨j, hj, rfl⟩; exact ⟨_, ⟨j, hj, rfl⟩, rfl⟩
  · simp only [Sim.setInlet2ByFraction, Tank.setInlet2ByFraction, bind_ok_iff, pure, Except.pure,
      Except.ok.injEq, C40_fraction (n + 1) (Nat.succ_pos n)]
    constructor
    · rintro ⟨t, ⟨j, hj, rfl⟩, rfl⟩; exact ⟨j, hj, rfl⟩
    · rintro ⟨j, hj, rfl⟩; exact ⟨_, ⟨j, hj, rfl⟩, rfl⟩

example : ∃ s', sampleSim.setInletByFraction (3 / 10) = .ok s' ∧ s'.tank.inletHeight = 1 := by
  decide +kernel

/-- The only heat pump of the simulator is the external one at `i`. -/
def Spec.OnlyExternal (s : Sim n k) (i : Fin k) : Prop :=
  (∃ c, IsHeatPump (s.cfg.src i) c ∧ c.configuration = .external) ∧
    ∀ j, (∃ c, IsHeatPump (s.cfg.src j) c) → j = i

theorem externalIndex_eq {s : Sim n k} (hk : Known s) {i : Fin k} (h : OnlyExternal s i) :
    s.externalIndex = some i := by
  obtain ⟨⟨c, hc, hx⟩, hu⟩ := h
  have hci : s.cfg.compressorIndex = some i :=
    (hk.heatPump i).mpr ⟨c, hc, fun j hj => (hu j hj).le⟩
  have hkind : (s.cfg.src i).kind = .condenser c := hc
  have hcomp : s.compressor = .ok (i, c) := by
    unfold Sim.compressor
    simp only [hci, hkind]
  unfold Sim.externalIndex
  simp only [hcomp, hx, ↓reduceIte]
  have hfi : (s.cfg.src i).kind.isCompressor = true := by rw [hkind]; rfl
  cases hfind : (List.finRange k).find? fun i => (s.cfg.src i).kind.isCompressor with
  | none =>
    have := List.find?_eq_none.mp hfind i (List.mem_finRange i)
    exact absurd hfi this
  | some j =>
    have hj : (s.cfg.src j).kind.isCompressor = true := by
      simpa using List.find?_some hfind
    congr 1
    apply hu
    cases hkj : (s.cfg.src j).kind with
    | condenser c' => exact ⟨c', hkj⟩
    | resistance p => rw [hkj] at hj; cases hj

/-- C40: the ports of an external heat pump. A request succeeds exactly for a fraction in `[0, 1]`, moves
that port to the node at that height, and the node is reported afterwards. -/
theorem C40_external_ports (s s' : Sim n k) (hk : Known s) (i : Fin k) (h : OnlyExternal s i) (f : ℚ) :
    (s.setExternalInlet f = .ok s' ↔ ∃ j : Fin (n + 1), (0 ≤ f ∧ f ≤ 1 ∧ NodeAt (n + 1) f j) ∧
      s' = s.setSrc i { s.cfg.src i with externalInlet := j }) ∧
    (s.setExternalOutlet f = .ok s' ↔ ∃ j : Fin (n + 1), (0 ≤ f ∧ f ≤ 1 ∧ NodeAt (n + 1) f j) ∧
      s' = s.setSrc i { s.cfg.src i with externalOutlet := j }) ∧
    s.getExternalInlet = .ok (s.cfg.src i).externalInlet ∧
    s.getExternalOutlet = .ok (s.cfg.src i).externalOutlet := by
  have hi := externalIndex_eq hk h
  refine ⟨?_, ?_, ?_, ?_⟩
  · simp only [Sim.setExternalInlet, hi, bind_ok_iff]
    constructor
    · rintro ⟨j, hj, e⟩
      have hj' := (C40_fraction (n + 1) (Nat.succ_pos n) f j).mp hj
      rw [dif_pos hj'.2.2.1] at e
      cases e
      exact ⟨⟨j, hj'.2.2.1⟩, hj', rfl⟩
    · rintro ⟨j, hj, rfl⟩
      exact ⟨j, (C40_fraction (n + 1) (Nat.succ_pos n) f j).mpr hj, by rw [dif_pos j.isLt]; rfl⟩
  · simp only [Sim.setExternalOutlet, hi, bind_ok_iff]
    constructor
    · rintro ⟨j, hj, e⟩
      have hj' := (C40_fraction (n + 1) (Nat.succ_pos n) f j).mp hj
      rw [dif_pos hj'.2.2.1] at e
      cases e
      exact ⟨⟨j, hj'.2.2.1⟩, hj', rfl⟩
    · rintro ⟨j, hj, rfl⟩
      exact ⟨j, (C40_fraction (n + 1) (Nat.succ_pos n) f j).mpr hj, by rw [dif_pos j.isLt]; rfl⟩
  · simp only [Sim.getExternalInlet, hi]
  · simp only [Sim.getExternalOutlet, hi]

/-- A simulator with an external heat pump and an element. -/
def sampleCentral : Sim 3 2 :=
  { sampleSim with
    cfg := { sampleSim.cfg with
      src := ![{ sampleExt with turnOn := [sampleTurnOn] }, sampleSim.cfg.src 1] } }

theorem sampleCentral_known : Known sampleCentral :=
  known_of_kinds sampleCentral _ _ rfl rfl rfl rfl

theorem sampleCentral_onlyExternal : OnlyExternal sampleCentral 0 := by
  refine ⟨⟨sampleExtCond, rfl, rfl⟩, fun j ⟨c, hc⟩ => ?_⟩
  by_contra h0
  have h1 : j = 1 := by omega
  subst h1
  cases hc

example : ∃ s', sampleCentral.setExternalInlet (3 / 5) = .ok s' ∧
    s'.getExternalInlet = .ok 2 := by decide +kernel

/-! ## C41 -/

/-- The power function is positive on positive numbers. -/
def Spec.PowPos (pow : ℚ → ℚ → ℚ) : Prop := ∀ x y, 0 < x → 0 < pow x y

theorem radiusFt_pos {pow : ℚ → ℚ → ℚ} (hp : PowPos pow) {V : ℚ} (hV : 0 < V) :
    0 < radiusFt pow V := by
  refine hp _ _ ?_
  unfold L_TO_FT3 piLit aspectRatio
  positivity

theorem tankSurfaceArea_pos {pow : ℚ → ℚ → ℚ} (hp : PowPos pow) {V : ℚ} (hV : 0 < V) :
    0 < tankSurfaceArea pow V := by
  have := radiusFt_pos hp hV
  unfold tankSurfaceArea FT2_TO_M2 FT_TO_M piLit aspectRatio ftPerM
  positivity

theorem tankRadius_pos {pow : ℚ → ℚ → ℚ} (hp : PowPos pow) {V : ℚ} (hV : 0 < V) :
    0 < tankRadius pow V := by
  have := radiusFt_pos hp hV
  unfold tankRadius FT_TO_M ftPerM
  rw [if_pos hV.le]
  positivity

/-- What the derived sizes of a tank must be. -/
structure Spec.Sized (pow : ℚ → ℚ → ℚ) (t : Tank n) : Prop where
  nodeVolume : t.nodeVolume_L * (n + 1) = t.volume_L
  nodeCp : t.nodeCp = 4180 / 1000 * (995 / 1000) * t.nodeVolume_L
  /-- the surfaces of top, bottom and side make up the whole -/
  areas : 2 * t.fracAreaTop + t.fracAreaSide = 1 ∧ 0 < t.fracAreaTop ∧ 0 < t.fracAreaSide
  /-- side to end as for a cylinder whose height is `aspectRatio` times its radius -/
  shape : t.fracAreaSide = 2 * aspectRatio * t.fracAreaTop
  height : t.nodeHeight_m * (n + 1) = aspectRatio * tankRadius pow t.volume_L
  effectiveness : t.nodeHeatExchangerEffectiveness =
    1 - pow (1 - t.heatExchangerEffectiveness) (1 / (n + 1))

/-- Same tank apart from the derived sizes. -/
def Spec.SameButSizes (t t' : Tank n) : Prop :=
  t' = { t with
    nodeVolume_L := t'.nodeVolume_L
    nodeCp := t'.nodeCp
    nodeHeight_m := t'.nodeHeight_m
    fracAreaTop := t'.fracAreaTop
    fracAreaSide := t'.fracAreaSide
    nodeHeatExchangerEffectiveness := t'.nodeHeatExchangerEffectiveness }

/-- The derived sizes of a tank with positive volume are always found, and they are right. -/
theorem C41_sizes (pow : ℚ → ℚ → ℚ) (hp : PowPos pow) (t : Tank n) (hV : 0 < t.volume_L) :
    ∃ t', t.calcSizeConstants pow = .ok t' ∧ Sized pow t' ∧ SameButSizes t t' := by
  have hr := tankRadius_pos hp hV
  have hn : (0 : ℚ) < (n : ℚ) + 1 := by positivity
  unfold Tank.calcSizeConstants
  have hne : aspectRatio * tankRadius pow t.volume_L + tankRadius pow t.volume_L ≠ 0 := by
    unfold aspectRatio; positivity
  simp only [hne, ↓reduceIte, Except.ok.injEq, exists_eq_left']
  refine ⟨⟨?_, ?_, ⟨?_, ?_, ?_⟩, ?_, ?_, rfl⟩, rfl⟩
  · simp only [Tank.numNodes]; field_simp
  · simp only [cpWater, rhoWater]
  · simp only []
    unfold aspectRatio
    field_simp
    norm_num
  · simp only [aspectRatio]; positivity
  · simp only [aspectRatio]; positivity
  · simp only []
    unfold aspectRatio at hne ⊢
    field_simp
  · simp only [Tank.numNodes]; field_simp

/-- With a power function that maps `[0, 1]` to itself, an effectiveness in `[0, 1]` gives one in
`[0, 1]` for each node. -/
theorem C41_effectiveness (pow : ℚ → ℚ → ℚ) (hp : ∀ x y, 0 ≤ x → x ≤ 1 → 0 ≤ pow x y ∧ pow x y ≤ 1)
    (t : Tank n) (ht : Sized pow t) (h0 : 0 ≤ t.heatExchangerEffectiveness)
    (h1 : t.heatExchangerEffectiveness ≤ 1) :
    0 ≤ t.nodeHeatExchangerEffectiveness ∧ t.nodeHeatExchangerEffectiveness ≤ 1 := by
  rw [ht.effectiveness]
  obtain ⟨a, b⟩ := hp (1 - t.heatExchangerEffectiveness) (1 / ((n : ℚ) + 1)) (by linarith)
    (by linarith)
  exact ⟨by linarith, by linarith⟩

/-- A volume in litres or gallons, in litres. -/
def Spec.litres : UnitTag → ℚ → Option ℚ
  | .L, x => some x
  | .GAL, x => some (x * (378541 / 100000))
  | _, _ => none

theorem volumeToL_ok {u : UnitTag} {x v : ℚ} : volumeToL u x = .ok v ↔ litres u x = some v := by
  cases u <;> simp [volumeToL, litres, GAL_TO_L, LPerGal]

theorem setVolume_iff {pow : ℚ → ℚ → ℚ} (hp : PowPos pow) (t : Tank n) (v : ℚ) (force : Bool) :
    (∃ t', t.setVolume pow v force = .ok t') ↔ 0 < v ∧ (t.volumeFixed = true → force = true) := by
  unfold Tank.setVolume
  by_cases h1 : t.volumeFixed = true ∧ force = false
  · simp [h1.1, h1.2]
  · simp only [h1, ↓reduceIte]
    have h1' : t.volumeFixed = true → force = true := fun h => by
      by_contra h2
      exact h1 ⟨h, by simpa using h2⟩
    by_cases h2 : v ≤ 0
    · simp [h2, not_lt.mpr h2]
    · simp only [h2, ↓reduceIte]
      obtain ⟨t', e, -⟩ := C41_sizes pow hp { t with volume_L := v } (not_le.mp h2)
      exact ⟨fun _ => ⟨not_le.mp h2, h1'⟩, fun _ => ⟨t', e⟩⟩

theorem setVolume_ok {pow : ℚ → ℚ → ℚ} (hp : PowPos pow) {t t' : Tank n} {v : ℚ} {force : Bool}
    (h : t.setVolume pow v force = .ok t') :
    Sized pow t' ∧ SameButSizes { t with volume_L := v } t' := by
  have hv := ((setVolume_iff hp t v force).mp ⟨t', h⟩).1
  unfold Tank.setVolume at h
  obtain ⟨-, h⟩ := ite_error_ok h
  obtain ⟨-, h⟩ := ite_error_ok h
  obtain ⟨t2, e, h1, h2⟩ := C41_sizes pow hp { t with volume_L := v } hv
  cases h.symm.trans e
  exact ⟨h1, h2⟩

/-- C41: changing the size with adjustment of the heat loss. The request succeeds exactly for a positive
volume in litres or gallons and, on a model of fixed size, only if it is forced. Then the tank has that
volume and the same heat loss per surface area as before, its derived sizes are right, and nothing else
has changed. (A request that fails changes nothing.) -/
theorem C41_resize (pow : ℚ → ℚ → ℚ) (hp : PowPos pow) (s : Sim n k) (hV : 0 < s.tank.volume_L)
    (u : UnitTag) (x : ℚ) (force : Bool) :
    ((∃ s', s.setTankSizeAdjustUA pow u x force = .ok s') ↔
      ∃ v, litres u x = some v ∧ 0 < v ∧ (s.tank.volumeFixed = true → force = true)) ∧
    ∀ s', s.setTankSizeAdjustUA pow u x force = .ok s' →
      litres u x = some s'.tank.volume_L ∧ s'.getTankSize u = .ok x ∧
      (∃ A A', s.getTankSurfaceArea pow .M2 = .ok A ∧ s'.getTankSurfaceArea pow .M2 = .ok A' ∧
        0 < A ∧ 0 < A' ∧ s'.tank.UA / A' = s.tank.UA / A) ∧
      Sized pow s'.tank ∧
      SameButSizes { s.tank with volume_L := s'.tank.volume_L, UA := s'.tank.UA } s'.tank ∧
      s' = { s with tank := s'.tank } := by
  have hA := tankSurfaceArea_pos hp hV
  have key : ∀ s', s.setTankSizeAdjustUA pow u x force = .ok s' → ∃ v, litres u x = some v ∧
      (0 < v ∧ (s.tank.volumeFixed = true → force = true)) ∧ ∃ t, s' = { s with tank := t } ∧
      Sized pow t ∧ SameButSizes { s.tank with
        volume_L := v
        UA := s.tank.UA * (tankSurfaceArea pow v / tankSurfaceArea pow s.tank.volume_L) } t := by
    intro s' h
    unfold Sim.setTankSizeAdjustUA at h
    obtain ⟨v, hv, h⟩ := (bind_ok_iff _ _ _).mp h
    obtain ⟨t, ht, h⟩ := (bind_ok_iff _ _ _).mp h
    cases h
    unfold Tank.setVolumeAndAdjustUA at ht
    obtain ⟨t1, h1, ht⟩ := (bind_ok_iff _ _ _).mp ht
    rw [if_neg hA.ne'] at ht
    have hvv := (setVolume_iff hp s.tank v force).mp ⟨t1, h1⟩
    obtain ⟨-, f2⟩ := setVolume_ok hp h1
    unfold SameButSizes at f2
    have e1 : t1.volume_L = v := by rw [f2]
    have e2 : t1.UA = s.tank.UA := by rw [f2]
    obtain ⟨t', e, g1, g2⟩ := C41_sizes pow hp { t1 with
      UA := t1.UA * (tankSurfaceArea pow v / tankSurfaceArea pow s.tank.volume_L) }
      (by simp only [e1]; exact hvv.1)
    cases ht.symm.trans e
    refine ⟨v, volumeToL_ok.mp hv, hvv, t, rfl, g1, ?_⟩
    unfold SameButSizes at g2 ⊢
    rw [e2, f2] at g2
    exact g2
  refine ⟨⟨fun ⟨s', h⟩ => ?_, ?_⟩, fun s' h => ?_⟩
  · obtain ⟨v, h1, h2, -⟩ := key s' h
    exact ⟨v, h1, h2⟩
  · rintro ⟨v, h1, h2⟩
    obtain ⟨t1, h3⟩ := (setVolume_iff hp s.tank v force).mpr h2
    obtain ⟨-, f2⟩ := setVolume_ok hp h3
    have e1 : t1.volume_L = v := by rw [f2]
    obtain ⟨t', e, -⟩ := C41_sizes pow hp { t1 with
      UA := t1.UA * (tankSurfaceArea pow v / tankSurfaceArea pow s.tank.volume_L) }
      (by simp only [e1]; exact h2.1)
    refine ⟨{ s with tank := t' }, ?_⟩
    simp only [Sim.setTankSizeAdjustUA, Tank.setVolumeAndAdjustUA, volumeToL_ok.mpr h1, h3, bind,
      Except.bind, hA.ne', ↓reduceIte, e, pure, Except.pure]
  · obtain ⟨v, h1, ⟨h2, -⟩, t, rfl, h3, h4⟩ := key s' h
    unfold SameButSizes at h4
    have e1 : t.volume_L = v := by rw [h4]
    have e2 : t.UA = s.tank.UA * (tankSurfaceArea pow v / tankSurfaceArea pow s.tank.volume_L) := by
      rw [h4]
    have hA' := tankSurfaceArea_pos hp h2
    refine ⟨by simp only [e1]; exact h1, ?_, ⟨_, _, rfl, rfl, hA, ?_, ?_⟩, h3, ?_, rfl⟩
    · simp only [Sim.getTankSize, e1]
      cases u <;> simp [litres] at h1
      · subst h1; simp [volumeFromL, L_TO_GAL, LPerGal]
      · subst h1; rfl
    · simp only [e1]; exact hA'
    · simp only [e1, e2]
      field_simp
    · simp only [SameButSizes, e1, e2]
      exact h4

/-- C41: to another size and back, and the heat loss is what it was. -/
theorem C41_round_trip (pow : ℚ → ℚ → ℚ) (hp : PowPos pow) (s s1 s2 : Sim n k)
    (hV : 0 < s.tank.volume_L) (u : UnitTag) (x : ℚ) (f1 f2 : Bool)
    (h1 : s.setTankSizeAdjustUA pow u x f1 = .ok s1)
    (h2 : s1.setTankSizeAdjustUA pow .L s.tank.volume_L f2 = .ok s2) :
    s2.tank.UA = s.tank.UA ∧ s2.tank.volume_L = s.tank.volume_L := by
  obtain ⟨a1, a2⟩ := C41_resize pow hp s hV u x f1
  obtain ⟨v, b1, b2, -⟩ := a1.mp ⟨s1, h1⟩
  obtain ⟨c1, -, ⟨A, A1, d1, d2, d3, d4, d5⟩, -, -, -⟩ := a2 s1 h1
  cases b1.symm.trans c1
  obtain ⟨e1, -, ⟨B, B1, g1, g2, g3, g4, g5⟩, -, -, -⟩ :=
    (C41_resize pow hp s1 b2 .L s.tank.volume_L f2).2 s2 h2
  have hv2 : s2.tank.volume_L = s.tank.volume_L := by
    simp only [litres, Option.some.injEq] at e1; exact e1.symm
  cases d2.symm.trans g1
  simp only [Sim.getTankSurfaceArea, Except.ok.injEq] at d1 g2
  rw [hv2, d1] at g2
  subst g2
  refine ⟨?_, hv2⟩
  rw [d5] at g5
  field_simp at g5
  exact g5

example : PowPos samplePow := fun _ _ _ => by norm_num [samplePow]

example : 0 < sampleSim.tank.volume_L ∧
    ∃ s1, sampleSim.setTankSizeAdjustUA samplePow .GAL 80 false = .ok s1 ∧
    ∃ s2, s1.setTankSizeAdjustUA samplePow .L sampleSim.tank.volume_L false = .ok s2 ∧
    s2.tank.UA = sampleSim.tank.UA ∧ s1.tank.volume_L ≠ s2.tank.volume_L := by decide +kernel

/-- Changing the size without adjustment leaves the heat loss coefficient as it is. -/
theorem C41_set_size (pow : ℚ → ℚ → ℚ) (hp : PowPos pow) (s s' : Sim n k) (u : UnitTag) (x : ℚ)
    (force : Bool) (h : s.setTankSize pow u x force = .ok s') :
    litres u x = some s'.tank.volume_L ∧ 0 < s'.tank.volume_L ∧
    (s.tank.volumeFixed = true → force = true) ∧ Sized pow s'.tank ∧
    SameButSizes { s.tank with volume_L := s'.tank.volume_L } s'.tank ∧
    s' = { s with tank := s'.tank } := by
  unfold Sim.setTankSize at h
  obtain ⟨v, hv, h⟩ := (bind_ok_iff _ _ _).mp h
  obtain ⟨t, ht, h⟩ := (bind_ok_iff _ _ _).mp h
  obtain ⟨t', ht', h⟩ := (bind_ok_iff _ _ _).mp h
  cases h
  have hvv := (setVolume_iff hp s.tank v force).mp ⟨t, ht⟩
  obtain ⟨-, f2⟩ := setVolume_ok hp ht
  unfold SameButSizes at f2
  have e1 : t.volume_L = v := by rw [f2]
  obtain ⟨t2, e, g1, g2⟩ := C41_sizes pow hp t (by rw [e1]; exact hvv.1)
  cases ht'.symm.trans e
  unfold SameButSizes at g2
  have e2 : t'.volume_L = v := by rw [g2, e1]
  refine ⟨by simp only [e2]; exact volumeToL_ok.mp hv, by simp only [e2]; exact hvv.1, hvv.2, g1, ?_,
    rfl⟩
  simp only [SameButSizes, e2]
  rw [f2] at g2
  exact g2

end HPWH
