import Verif.Props.Capacity
import Mathlib.Data.List.Sort
import Mathlib.Data.List.Perm.Basic

/-! # Capacity of the resistance elements (C49) -/

namespace HPWH

open Spec
open _root_.HPWH.Units

variable {n k : ℕ}

/-! ## Specification -/

/-- A list of the resistance elements with their positions in twelfths of the tank height: every element
once, from the lowest to the highest. -/
structure Spec.ElementMap (src : Fin k → SourceCfg n k) (map : List (Fin k × ℕ)) : Prop where
  once : (map.map Prod.fst).Nodup
  all : ∀ i, i ∈ map.map Prod.fst ↔ IsElement (src i)
  position : ∀ e ∈ map, ∃ h, HeatsFrom (src e.1).heatDist h ∧ (e.2 : ℚ) ≤ 12 * h ∧ 12 * h < e.2 + 1
  sorted : map.Pairwise fun a b => a.2 ≤ b.2

/-- The elements a request addresses: all of them with `-1`; otherwise those at the same position as the
element with this rank. -/
def Spec.Addressed (map : List (Fin k × ℕ)) (which : ℤ) (i : Fin k) : Prop :=
  ∃ e ∈ map, e.1 = i ∧ (which = -1 ∨ ∃ f, map[which.toNat]? = some f ∧ 0 ≤ which ∧ e.2 = f.2)

/-- A power in kW or in BTU per hour, in kW. -/
def Spec.kilowatts : UnitTag → ℚ → Option ℚ
  | .KW, x => some x
  | .BTUperHr, x => some (x / (341214163312794 / 100000000000))
  | _, _ => none

/-! ## The map of elements -/

theorem mapM_forall₂ {α β : Type} {f : α → Res β} {l : List α} {r : List β}
    (h : l.mapM f = .ok r) : List.Forall₂ (fun a b => f a = .ok b) l r := by
  induction l generalizing r with
  | nil => cases h; exact .nil
  | cons a l ih =>
    rw [List.mapM_cons] at h
    obtain ⟨b, h1, h⟩ := (bind_ok_iff _ _ _).mp h
    obtain ⟨bs, h2, h⟩ := (bind_ok_iff _ _ _).mp h
    cases h
    exact .cons h1 (ih h2)

theorem isElement_iff (s : SourceCfg n k) : IsElement s ↔ (!s.kind.isCompressor) = true := by
  unfold IsElement
  cases h : s.kind <;> simp [SourceKind.isCompressor]

theorem mapResistances_map {src : Fin k → SourceCfg n k} {map : List (Fin k × ℕ)}
    (hp : ∀ i, (src i).heatDist.Proper) (h : mapResistances src = .ok map) : ElementMap src map := by
  unfold mapResistances at h
  obtain ⟨l, h1, h⟩ := (bind_ok_iff _ _ _).mp h
  have hl := mapM_forall₂ h1
  replace h : map = l.insertionSort fun a b => a.2 ≤ b.2 := by cases h; rfl
  have hfst : l.map Prod.fst = (List.finRange k).filter fun i => !(src i).kind.isCompressor := by
    clear h1 h
    generalize (List.finRange k).filter (fun i => !(src i).kind.isCompressor) = q at hl ⊢
    induction hl with
    | nil => rfl
    | cons hab _ ih =>
      obtain ⟨p, -, e⟩ := (bind_ok_iff _ _ _).mp hab
      cases e
      simp only [List.map_cons, ih]
  have hpos : ∀ e ∈ l, resistancePosition (src e.1).heatDist = .ok e.2 := by
    clear h1 h hfst
    generalize (List.finRange k).filter (fun i => !(src i).kind.isCompressor) = q at hl
    induction hl with
    | nil => simp
    | cons hab _ ih =>
      obtain ⟨p, hp, e⟩ := (bind_ok_iff _ _ _).mp hab
      cases e
      intro e he
      rcases List.mem_cons.mp he with rfl | he
      · exact hp
      · exact ih e he
  have perm : map.Perm l := h ▸ List.perm_insertionSort _ _
  refine ⟨?_, fun i => ?_, fun e he => ?_, ?_⟩
  · rw [(perm.map Prod.fst).nodup_iff, hfst]
    exact (List.nodup_finRange k).filter _
  · rw [(perm.map Prod.fst).mem_iff, hfst, isElement_iff]
    simp
  · have := hpos e (perm.mem_iff.mp he)
    unfold resistancePosition at this
    obtain ⟨x, hx, e2⟩ := (bind_ok_iff _ _ _).mp this
    replace e2 : e.2 = ⌊12 * x⌋₊ := (Except.ok.inj e2).symm
    have hh := WDist.lowestNormalizedHeight_heats (hp _) hx
    refine ⟨x, hh, ?_, ?_⟩ <;> rw [e2]
    · exact Nat.floor_le (by linarith [hh.1])
    · exact Nat.lt_floor_add_one _
  · rw [h]
    exact List.pairwise_insertionSort (r := fun a b : Fin k × ℕ => a.2 ≤ b.2) l

/-- C49: the simulator knows the positions of its resistance elements. -/
theorem C49_element_positions (m : Libm) (pow : ℚ → ℚ → ℚ) (s s' : Sim n k)
    (hp : ∀ i, (s.cfg.src i).heatDist.Proper) (h : s.calcDerivedValues m pow = .ok s') :
    ElementMap s'.cfg.src s'.cfg.heightMap := by
  obtain ⟨ix, tank, map, -, -, h3, rfl⟩ := calcDerived_ok h
  have := mapResistances_map hp h3
  exact ⟨this.once, this.all, this.position, this.sorted⟩

/-! ## Setting and reading -/

theorem elements_length {s : Sim n k} (hm : ElementMap s.cfg.src s.cfg.heightMap) :
    s.numElements = s.cfg.heightMap.length := by
  unfold Sim.numElements
  rw [← List.length_map (f := Prod.fst) (as := s.cfg.heightMap)]
  refine List.Perm.length_eq ((List.perm_ext_iff_of_nodup ?_ hm.once).mpr fun i => ?_)
  · exact (List.nodup_finRange k).filter _
  · rw [hm.all, isElement_iff]; simp

/-- The simulator `s'` is `s` except that the heat sources in `A` are elements of `kW` kilowatts. -/
structure Spec.WithPower (s s' : Sim n k) (A : Fin k → Prop) (kW : ℚ) : Prop where
  rest : s' = { s with cfg := { s.cfg with src := s'.cfg.src } }
  set : ∀ i, A i → s'.cfg.src i = { s.cfg.src i with kind := .resistance kW }
  keep : ∀ i, ¬ A i → s'.cfg.src i = s.cfg.src i

theorem Spec.WithPower.unique {s a b : Sim n k} {A : Fin k → Prop} {kW : ℚ} (ha : WithPower s a A kW)
    (hb : WithPower s b A kW) : a = b := by
  have : a.cfg.src = b.cfg.src := by
    funext i
    by_cases h : A i
    · rw [ha.set i h, hb.set i h]
    · rw [ha.keep i h, hb.keep i h]
  rw [ha.rest, hb.rest, this]

theorem setPowerWhere_spec (s : Sim n k) (watts : ℚ) (which : Fin k → Bool) :
    WithPower s (s.setPowerWhere watts which)
      (fun i => IsElement (s.cfg.src i) ∧ which i = true) (watts / 1000) := by
  refine ⟨rfl, fun i hi => ?_, fun i hi => ?_⟩
  · obtain ⟨⟨p, hp⟩, hw⟩ := hi
    simp only [Sim.setPowerWhere, hp, hw, ↓reduceIte]
  · simp only [Sim.setPowerWhere]
    cases hp : (s.cfg.src i).kind with
    | condenser c => rfl
    | resistance p =>
      have : which i ≠ true := fun hw => hi ⟨⟨p, hp⟩, hw⟩
      simp [this]

theorem powerToW_ok {u : UnitTag} {x w : ℚ} :
    Sim.powerToW u x = .ok w ↔ kilowatts u x = some (w / 1000) := by
  cases u <;> simp [Sim.powerToW, kilowatts, KW_TO_W, BTU_TO_KWH, BTUperKWH]
  all_goals constructor <;> intro h <;> linarith

theorem powerOut_ok {u : UnitTag} {x w : ℚ} :
    Sim.getResistanceCapacity.powerOut u w = .ok x ↔ kilowatts u x = some (w / 1000) := by
  cases u <;> simp [Sim.getResistanceCapacity.powerOut, kilowatts, W_TO_KW, KWH_TO_BTU, BTUperKWH]
  all_goals constructor <;> intro h <;> linarith

theorem addressed_same {s : Sim n k} {w : ℕ} (h : w < s.cfg.heightMap.length) (i : Fin k) :
    i ∈ Sim.atSamePosition s.cfg.heightMap w h ↔ Addressed s.cfg.heightMap w i := by
  unfold Sim.atSamePosition Addressed
  simp only [List.mem_map, List.mem_filter, decide_eq_true_eq]
  constructor
  · rintro ⟨e, ⟨he, hp⟩, rfl⟩
    exact ⟨e, he, rfl, .inr ⟨_, List.getElem?_eq_getElem h, by omega, hp⟩⟩
  · rintro ⟨e, he, rfl, h' | ⟨f, hf, -, hp⟩⟩
    · omega
    · rw [Int.toNat_natCast, List.getElem?_eq_getElem h] at hf
      cases hf
      exact ⟨e, ⟨he, hp⟩, rfl⟩

theorem addressed_all {s : Sim n k} (hm : ElementMap s.cfg.src s.cfg.heightMap) (i : Fin k) :
    Addressed s.cfg.heightMap (-1) i ↔ IsElement (s.cfg.src i) := by
  rw [← hm.all]
  simp [Addressed]

theorem addressed_element {s : Sim n k} (hm : ElementMap s.cfg.src s.cfg.heightMap) {w : ℤ} {i : Fin k}
    (h : Addressed s.cfg.heightMap w i) : IsElement (s.cfg.src i) := by
  obtain ⟨e, he, rfl, -⟩ := h
  exact (hm.all _).mp (List.mem_map_of_mem he)

/-- C49: a request to set the power of resistance elements is accepted exactly if the model can be
scaled, it has elements, the rank is that of an element (or -1), the power is not negative and the unit
is one of power; it then gives the elements addressed this power, and changes nothing else. -/
theorem C49_set (s s' : Sim n k) (hm : ElementMap s.cfg.src s.cfg.heightMap) (power : ℚ) (which : ℤ)
    (u : UnitTag) :
    s.setResistanceCapacity power which u = .ok s' ↔
      s.cfg.canScale = true ∧ (∃ i, IsElement (s.cfg.src i)) ∧
      -1 ≤ which ∧ which < s.cfg.heightMap.length ∧ 0 ≤ power ∧
      ∃ kW, kilowatts u power = some kW ∧
        WithPower s s' (Addressed s.cfg.heightMap which) kW := by
  have hlen := elements_length hm
  have hne : (∃ i, IsElement (s.cfg.src i)) ↔ s.cfg.heightMap.length ≠ 0 := by
    rw [← List.length_map (f := Prod.fst)]
    simp only [ne_eq, List.length_eq_zero_iff]
    constructor
    · rintro ⟨i, hi⟩ h0
      rw [← hm.all, h0] at hi
      cases hi
    · intro h0
      obtain ⟨i, hi⟩ := List.exists_mem_of_ne_nil _ h0
      exact ⟨i, (hm.all i).mp hi⟩
  unfold Sim.setResistanceCapacity
  rw [hlen]
  by_cases h1 : s.cfg.canScale = false
  · simp [h1]
  by_cases h2 : s.cfg.heightMap.length = 0
  · simp only [h1, h2, ↓reduceIte]
    simp only [h2, hne]
    simp
  by_cases h3 : which < -1 ∨ which > (s.cfg.heightMap.length : ℤ) - 1
  · simp only [h1, h2, h3, ↓reduceIte]
    constructor
    · intro h; cases h
    · rintro ⟨-, -, a, b, -⟩; omega
  by_cases h4 : power < 0
  · simp only [h1, h2, h3, h4, ↓reduceIte]
    constructor
    · intro h; cases h
    · rintro ⟨-, -, -, -, a, -⟩; linarith
  rw [if_neg h1, if_neg h2, if_neg h3, if_neg h4, bind_ok_iff]
  have key : ∀ w : ℚ, ((if which = -1 then pure (s.setPowerWhere w fun _ => true)
      else if h : which.toNat < s.cfg.heightMap.length then
        pure (s.setPowerWhere w fun i => (Sim.atSamePosition s.cfg.heightMap which.toNat h).contains i)
      else .error .ub : Res (Sim n k)) = .ok s') ↔
        WithPower s s' (Addressed s.cfg.heightMap which) (w / 1000) := by
    intro w
    by_cases h5 : which = -1
    · subst h5
      simp only [↓reduceIte]
      have a := setPowerWhere_spec s w fun _ => true
      have e : (fun i => IsElement (s.cfg.src i) ∧ true = true) = Addressed s.cfg.heightMap (-1) := by
        funext i; simp [addressed_all hm]
      rw [e] at a
      constructor
      · intro h; cases h; exact a
      · intro h; exact congrArg Except.ok (a.unique h)
    · have h6 : which.toNat < s.cfg.heightMap.length := by omega
      simp only [h5, h6, ↓reduceIte, ↓reduceDIte]
      have a := setPowerWhere_spec s w fun i =>
        (Sim.atSamePosition s.cfg.heightMap which.toNat h6).contains i
      have e : (fun i => IsElement (s.cfg.src i) ∧
          (Sim.atSamePosition s.cfg.heightMap which.toNat h6).contains i = true) =
          Addressed s.cfg.heightMap which := by
        funext i
        have hw : ((which.toNat : ℕ) : ℤ) = which := by omega
        have := addressed_same h6 i
        rw [hw] at this
        simp only [List.contains_iff_mem, this, eq_iff_iff]
        exact ⟨fun h => h.2, fun h => ⟨addressed_element hm h, h⟩⟩
      rw [e] at a
      constructor
      · intro h; cases h; exact a
      · intro h; exact congrArg Except.ok (a.unique h)
  constructor
  · rintro ⟨w, hw, h⟩
    exact ⟨by simpa using h1, hne.mpr h2, by omega, by omega, by linarith, w / 1000, powerToW_ok.mp hw,
      (key w).mp h⟩
  · rintro ⟨-, -, -, -, -, kW, hk, h⟩
    refine ⟨1000 * kW, powerToW_ok.mpr (by rw [hk, mul_div_cancel_left₀]; norm_num), (key _).mpr ?_⟩
    rwa [mul_div_cancel_left₀ _ (by norm_num)]

theorem sum_elements (s : Sim n k) : ∀ l : List (Fin k), (l.map s.elementPowerW).sum =
    ((l.filter fun i => !(s.cfg.src i).kind.isCompressor).map s.elementPowerW).sum
  | [] => rfl
  | i :: l => by
    rw [List.map_cons, List.sum_cons, sum_elements s l, List.filter_cons]
    cases h : (s.cfg.src i).kind with
    | resistance p => simp [SourceKind.isCompressor]
    | condenser c => simp [SourceKind.isCompressor, Sim.elementPowerW, h]

/-- C49: the power reported is the sum of the powers of the elements addressed, in the unit asked for. -/
theorem C49_get (s : Sim n k) (hm : ElementMap s.cfg.src s.cfg.heightMap) (which : ℤ) (u : UnitTag)
    (x : ℚ) (h : s.getResistanceCapacity which u = .ok x) :
    ∃ L : List (Fin k), L.Nodup ∧ L ≠ [] ∧ (∀ i, i ∈ L ↔ Addressed s.cfg.heightMap which i) ∧
      kilowatts u x = some (L.map fun i =>
        match (s.cfg.src i).kind with | .resistance kW => kW | .condenser _ => 0).sum := by
  have hlen := elements_length hm
  have hsum : ∀ L : List (Fin k), (L.map s.elementPowerW).sum / 1000 = (L.map fun i =>
        match (s.cfg.src i).kind with | .resistance kW => kW | .condenser _ => 0).sum := by
    intro L
    induction L with
    | nil => simp
    | cons i L ih =>
      simp only [List.map_cons, List.sum_cons, add_div, ih]
      congr 1
      unfold Sim.elementPowerW
      cases (s.cfg.src i).kind <;> simp
  unfold Sim.getResistanceCapacity at h
  rw [hlen] at h
  obtain ⟨h2, h⟩ := ite_error_ok h
  obtain ⟨h3, h⟩ := ite_error_ok h
  by_cases h5 : which = -1
  · subst h5
    simp only [↓reduceIte] at h
    refine ⟨s.cfg.heightMap.map Prod.fst, hm.once, fun h0 => h2 (by simpa using h0), fun i => ?_, ?_⟩
    · rw [addressed_all hm, hm.all]
    · rw [powerOut_ok.mp h, ← hsum]
      congr 2
      rw [sum_elements s]
      refine List.Perm.sum_eq (List.Perm.map _ ?_)
      exact (List.perm_ext_iff_of_nodup ((List.nodup_finRange k).filter _) hm.once).mpr fun i => by
        rw [hm.all, isElement_iff]; simp
  · have h6 : which.toNat < s.cfg.heightMap.length := by omega
    simp only [h5, h6, ↓reduceIte, ↓reduceDIte] at h
    have hw : ((which.toNat : ℕ) : ℤ) = which := by omega
    refine ⟨Sim.atSamePosition s.cfg.heightMap which.toNat h6, ?_, ?_, fun i => ?_, ?_⟩
    · exact hm.once.sublist (List.filter_sublist.map _)
    · refine List.ne_nil_of_mem (a := (s.cfg.heightMap[which.toNat]).1) ?_
      exact List.mem_map_of_mem (List.mem_filter.mpr ⟨List.getElem_mem h6, by simp⟩)
    · rw [addressed_same h6 i, hw]
    · rw [powerOut_ok.mp h, hsum]

/-- C49: after the power of elements has been set, the power reported for the same request is the power
set, once for each element addressed. -/
theorem C49_round_trip (s s' : Sim n k) (hm : ElementMap s.cfg.src s.cfg.heightMap) (power : ℚ)
    (which : ℤ) (u : UnitTag) (h : s.setResistanceCapacity power which u = .ok s') :
    ElementMap s'.cfg.src s'.cfg.heightMap ∧
    ∃ L : List (Fin k), L.Nodup ∧ L ≠ [] ∧ (∀ i, i ∈ L ↔ Addressed s.cfg.heightMap which i) ∧
      s'.getResistanceCapacity which u = .ok (L.length * power) := by
  obtain ⟨-, ⟨i0, hi0⟩, hw1, hw2, -, kW, hk, hs⟩ := (C49_set s s' hm power which u).mp h
  have hpos : 0 < s.cfg.heightMap.length := by
    have := List.length_pos_of_mem ((hm.all i0).mpr hi0)
    rwa [List.length_map] at this
  have hmap : s'.cfg.heightMap = s.cfg.heightMap := by rw [hs.rest]
  have hdist : ∀ i, (s'.cfg.src i).heatDist = (s.cfg.src i).heatDist := fun i => by
    by_cases hi : Addressed s.cfg.heightMap which i
    · rw [hs.set i hi]
    · rw [hs.keep i hi]
  have hel : ∀ i, IsElement (s'.cfg.src i) ↔ IsElement (s.cfg.src i) := fun i => by
    by_cases hi : Addressed s.cfg.heightMap which i
    · rw [hs.set i hi]
      exact ⟨fun _ => addressed_element hm hi, fun _ => ⟨kW, rfl⟩⟩
    · rw [hs.keep i hi]
  have hm' : ElementMap s'.cfg.src s'.cfg.heightMap := by
    rw [hmap]
    exact ⟨hm.once, fun i => by rw [hm.all, hel], fun e he => by rw [hdist]; exact hm.position e he,
      hm.sorted⟩
  refine ⟨hm', ?_⟩
  have hex : ∃ x, s'.getResistanceCapacity which u = .ok x := by
    have hlen := elements_length hm'
    rw [hmap] at hlen
    have hout : ∀ w, ∃ x, Sim.getResistanceCapacity.powerOut u w = .ok x := fun w => by
      cases u <;> simp [kilowatts] at hk <;> exact ⟨_, rfl⟩
    unfold Sim.getResistanceCapacity
    rw [hlen, if_neg (by omega), if_neg (by omega)]
    by_cases h5 : which = -1
    · simp only [h5, ↓reduceIte]
      exact hout _
    · have h6 : which.toNat < s'.cfg.heightMap.length := by rw [hmap]; omega
      simp only [h5, h6, ↓reduceIte, ↓reduceDIte]
      exact hout _
  obtain ⟨x, hx⟩ := hex
  obtain ⟨L, l1, l2, l3, l4⟩ := C49_get s' hm' which u x hx
  rw [hmap] at l3
  refine ⟨L, l1, l2, l3, ?_⟩
  rw [hx]
  have hsum : (L.map fun i =>
      match (s'.cfg.src i).kind with | .resistance kW => kW | .condenser _ => 0).sum =
      L.length * kW := by
    have : (L.map fun i =>
        match (s'.cfg.src i).kind with | .resistance kW => kW | .condenser _ => 0) =
        L.map fun _ => kW := by
      refine List.map_congr_left fun i hi => ?_
      rw [hs.set i ((l3 i).mp hi)]
    rw [this, List.map_const', List.sum_replicate, nsmul_eq_mul]
  rw [hsum] at l4
  congr 1
  cases u <;> simp [kilowatts] at hk l4
  · rw [l4, hk]
  · rw [div_eq_iff (by norm_num)] at l4
    rw [l4, ← hk]
    ring

/-- Two elements at the same position and one further up. -/
def sampleElements : Sim 3 3 :=
  { sampleUnderived with cfg := { sampleUnderived.cfg with
      canScale := true
      heightMap := [(0, 3), (2, 3), (1, 9)]
      src := ![{ sampleUnderived.cfg.src 2 with heatDist := [⟨5, 0⟩, ⟨8, 1⟩, ⟨16, 0⟩] },
               sampleUnderived.cfg.src 1, sampleUnderived.cfg.src 2] } }

example : ∃ s', sampleElements.calcDerivedValues sampleLibm samplePow = .ok s' ∧
    s'.cfg.heightMap = [(0, 3), (2, 3), (1, 9)] ∧
    ∃ s2, s'.setResistanceCapacity 5 1 .KW = .ok s2 ∧ s2.getResistanceCapacity 0 .KW = .ok 10 ∧
      s2.getResistanceCapacity 2 .KW = s'.getResistanceCapacity 2 .KW := by
  decide +kernel

end HPWH
