import Verif.Model.Grid
import Mathlib.Tactic.Ring
import Mathlib.Tactic.Linarith
import Mathlib.Data.List.Perm.Basic
import Mathlib.Data.List.Nodup
import Mathlib.Algebra.BigOperators.Ring.List

/-! # Performance grids (C46, C47) -/

namespace HPWH

variable {α : Type}

/-! ## Specification -/

namespace Spec

/-- Position of a grid point in a table stored row by row, the last axis running fastest: `dims` are the
sizes of the axes, `x` the coordinates. -/
def rowMajor : (dims x : List ℕ) → ℕ
  | _ :: ds, x :: xs => x * ds.prod + rowMajor ds xs
  | _, _ => 0

/-- Coordinates of a point of the grid. -/
def InGrid (dims x : List ℕ) : Prop := List.Forall₂ (· < ·) x dims

/-- Two entries of a list exchanged. -/
def exchanged {β : Type} (l l' : List β) (i j : ℕ) : Prop :=
  l'.length = l.length ∧ ∀ a, l'[a]? = l[if a = i then j else if a = j then i else a]?

/-- The sizes of the axes. -/
def sizes (axes : List (List α)) : List ℕ := axes.map List.length

/-- Two tables at least, the first two with one entry for each point of the grid. -/
def Complete (g : PerfGrid α) : Prop :=
  ∃ o0 o1 rest, g.tables = o0 :: o1 :: rest ∧ o0.length = (sizes g.axes).prod ∧
    o1.length = (sizes g.axes).prod

end Spec

open Spec

/-! ## The odometer -/

/-- The number shown by an odometer whose wheels are listed from the fastest. -/
def wheels (size : ℕ → ℕ) (pos : ℕ → ℕ) : List ℕ → ℕ
  | [] => 0
  | a :: as => pos a + size a * wheels size pos as

theorem wheels_congr {size pos pos' : ℕ → ℕ} : ∀ {as : List ℕ}, (∀ a ∈ as, pos' a = pos a) →
    wheels size pos' as = wheels size pos as
  | [], _ => rfl
  | a :: as, h => by
    rw [wheels, wheels, h a (by simp), wheels_congr fun b hb => h b (List.mem_cons_of_mem _ hb)]

theorem wheels_lt {size pos : ℕ → ℕ} : ∀ {as : List ℕ}, (∀ a ∈ as, pos a < size a) →
    wheels size pos as < (as.map size).prod
  | [], _ => by simp [wheels]
  | a :: as, h => by
    have h1 := h a (by simp)
    have h2 := wheels_lt (pos := pos) (as := as) fun b hb => h b (List.mem_cons_of_mem _ hb)
    rw [wheels, List.map_cons, List.prod_cons]
    calc pos a + size a * wheels size pos as < size a + size a * wheels size pos as := by omega
      _ = size a * (wheels size pos as + 1) := by ring
      _ ≤ _ := Nat.mul_le_mul_left _ h2

theorem wheels_inj {size pos pos' : ℕ → ℕ} : ∀ {as : List ℕ}, (∀ a ∈ as, pos a < size a) →
    (∀ a ∈ as, pos' a < size a) → wheels size pos as = wheels size pos' as → ∀ a ∈ as, pos a = pos' a
  | [], _, _, _ => by simp
  | a :: as, h, h', he => by
    have h1 := h a (by simp)
    have h1' := h' a (by simp)
    rw [wheels, wheels] at he
    have e1 : pos a = pos' a := by
      have := congrArg (· % size a) he
      simpa [Nat.add_mul_mod_self_left, Nat.mod_eq_of_lt h1, Nat.mod_eq_of_lt h1'] using this
    have e2 : wheels size pos as = wheels size pos' as := by
      rw [e1] at he
      exact Nat.eq_of_mul_eq_mul_left (by omega) (Nat.add_left_cancel he)
    intro b hb
    rcases List.mem_cons.mp hb with rfl | hb
    · exact e1
    · exact wheels_inj (fun b hb => h b (List.mem_cons_of_mem _ hb))
        (fun b hb => h' b (List.mem_cons_of_mem _ hb)) e2 b hb

/-- Turning the odometer adds one, as long as it does not overflow. -/
theorem advance_spec (axes : List (List α)) : ∀ (as : List ℕ) (pos : ℕ → ℕ), as.Nodup →
    (∀ a ∈ as, pos a < PerfGrid.axisSize axes a) →
    (∀ a ∈ as, PerfGrid.advance axes as pos a < PerfGrid.axisSize axes a) ∧
    (∀ a, a ∉ as → PerfGrid.advance axes as pos a = pos a) ∧
    (wheels (PerfGrid.axisSize axes) pos as + 1 < (as.map (PerfGrid.axisSize axes)).prod →
      wheels (PerfGrid.axisSize axes) (PerfGrid.advance axes as pos) as =
        wheels (PerfGrid.axisSize axes) pos as + 1)
  | [], pos, _, _ => by simp [PerfGrid.advance, wheels]
  | a :: as, pos, hn, hb => by
    have hna : a ∉ as := (List.nodup_cons.mp hn).1
    have hb1 := hb a (by simp)
    have hbs : ∀ b ∈ as, pos b < PerfGrid.axisSize axes b := fun b h => hb b (List.mem_cons_of_mem _ h)
    rw [PerfGrid.advance]
    simp only [Function.update_self, Function.update_idem]
    split_ifs with hlt
    · have hne : ∀ b ∈ as, Function.update pos a (pos a + 1) b = pos b := fun b h =>
        Function.update_of_ne (fun e => hna (by rw [← e]; exact h)) _ _
      refine ⟨fun b h => ?_, fun b h => ?_, fun _ => ?_⟩
      · rcases List.mem_cons.mp h with rfl | h
        · simpa using hlt
        · rw [hne b h]; exact hbs b h
      · exact Function.update_of_ne (fun e => h (by simp [e])) _ _
      · rw [wheels, wheels, wheels_congr hne, Function.update_self]; ring
    · have hne : ∀ b ∈ as, Function.update pos a 0 b = pos b := fun b h =>
        Function.update_of_ne (fun e => hna (by rw [← e]; exact h)) _ _
      obtain ⟨i1, i2, i3⟩ := advance_spec axes as (Function.update pos a 0) (List.nodup_cons.mp hn).2
        (fun b h => by rw [hne b h]; exact hbs b h)
      have e0 : PerfGrid.advance axes as (Function.update pos a 0) a = 0 := by
        rw [i2 a hna, Function.update_self]
      refine ⟨fun b h => ?_, fun b h => ?_, fun hov => ?_⟩
      · rcases List.mem_cons.mp h with rfl | h
        · rw [e0]; omega
        · exact i1 b h
      · rw [i2 b (fun h' => h (List.mem_cons_of_mem _ h'))]
        exact Function.update_of_ne (fun e => h (by simp [e])) _ _
      · have hp : pos a + 1 = PerfGrid.axisSize axes a := by omega
        rw [wheels, wheels, e0]
        rw [wheels, List.map_cons, List.prod_cons] at hov
        have e1 : wheels (PerfGrid.axisSize axes) (Function.update pos a 0) as =
            wheels (PerfGrid.axisSize axes) pos as := wheels_congr hne
        rw [e1] at i3
        have : PerfGrid.axisSize axes a * (wheels (PerfGrid.axisSize axes) pos as + 1) <
            PerfGrid.axisSize axes a * (as.map (PerfGrid.axisSize axes)).prod := by
          rw [Nat.mul_add, mul_one]
          omega
        rw [i3 (Nat.lt_of_mul_lt_mul_left this), ← hp]
        ring

/-! ## Row-major positions -/

theorem rowMajor_lt : ∀ {dims x : List ℕ}, InGrid dims x → rowMajor dims x < dims.prod
  | _, _, .nil => by simp [rowMajor]
  | _, _, .cons (a := a) (b := d) (l₁ := xs) (l₂ := ds) h hs => by
    have := rowMajor_lt hs
    rw [rowMajor, List.prod_cons]
    calc a * ds.prod + rowMajor ds xs < a * ds.prod + ds.prod := by omega
      _ = (a + 1) * ds.prod := by ring
      _ ≤ _ := Nat.mul_le_mul_right _ h

/-- Every position below the number of points is that of a point. -/
theorem rowMajor_surj : ∀ (dims : List ℕ) (m : ℕ), m < dims.prod →
    ∃ x, InGrid dims x ∧ rowMajor dims x = m
  | [], m, h => ⟨[], .nil, by simp at h; simp [rowMajor, h]⟩
  | d :: ds, m, h => by
    rw [List.prod_cons] at h
    have hp : 0 < ds.prod := by
      rcases Nat.eq_zero_or_pos ds.prod with h0 | h0
      · rw [h0] at h; simp at h
      · exact h0
    obtain ⟨xs, hx, e⟩ := rowMajor_surj ds (m % ds.prod) (Nat.mod_lt _ hp)
    refine ⟨m / ds.prod :: xs, .cons ?_ hx, ?_⟩
    · exact Nat.div_lt_of_lt_mul (by rw [Nat.mul_comm]; exact h)
    · rw [rowMajor, e, Nat.mul_comm, Nat.div_add_mod]

theorem wheels_append (size pos : ℕ → ℕ) : ∀ (as bs : List ℕ), wheels size pos (as ++ bs) =
    wheels size pos as + (as.map size).prod * wheels size pos bs
  | [], bs => by simp [wheels]
  | a :: as, bs => by
    rw [List.cons_append, wheels, wheels, wheels_append size pos as bs, List.map_cons, List.prod_cons]
    ring

theorem wheels_rowMajor (size pos : ℕ → ℕ) : ∀ as : List ℕ,
    rowMajor (as.map size) (as.map pos) = wheels size pos as.reverse
  | [] => rfl
  | a :: as => by
    rw [List.map_cons, List.map_cons, rowMajor, wheels_rowMajor size pos as, List.reverse_cons,
      wheels_append, List.map_reverse, List.prod_reverse]
    simp only [wheels]
    ring

theorem rowMajor_range : ∀ (axes : List (List α)) (pos : ℕ → ℕ),
    ((List.range axes.length).map fun a => PerfGrid.dimSize axes a * pos a).sum =
      rowMajor (sizes axes) ((List.range axes.length).map pos)
  | [], _ => rfl
  | ax :: axes, pos => by
    rw [List.length_cons, List.range_succ_eq_map, List.map_cons, List.map_cons, List.sum_cons,
      List.map_map, List.map_map, sizes, List.map_cons, rowMajor]
    have := rowMajor_range axes (pos ∘ Nat.succ)
    rw [sizes] at this
    rw [← this]
    simp only [PerfGrid.dimSize, List.drop_succ_cons, List.drop_zero, Function.comp_def]
    rw [Nat.mul_comm]

theorem foldl_sum (f : ℕ → ℕ) : ∀ (l : List ℕ) (c : ℕ),
    l.foldl (fun acc a => acc + f a) c = c + (l.map f).sum
  | [], c => by simp
  | a :: l, c => by rw [List.foldl_cons, foldl_sum f l, List.map_cons, List.sum_cons, Nat.add_assoc]

/-! ## The exchange of two axes -/

/-- The other axis. -/
def other (i j a : ℕ) : ℕ := if a = i then j else if a = j then i else a

theorem other_other (i j a : ℕ) : other i j (other i j a) = a := by
  unfold other
  split_ifs <;> omega

theorem other_lt {i j a N : ℕ} (hi : i < N) (hj : j < N) (ha : a < N) : other i j a < N := by
  unfold other
  split_ifs <;> omega

theorem axesInd_eq (N i j : ℕ) : PerfGrid.axesInd N i j = (List.range N).map (other i j) := rfl

theorem axesInd_nodup (N i j : ℕ) : (PerfGrid.axesInd N i j).Nodup := by
  rw [axesInd_eq]
  refine List.Nodup.map (fun a b h => ?_) List.nodup_range
  rw [← other_other i j a, h, other_other]

theorem mem_axesInd {N i j a : ℕ} (hi : i < N) (hj : j < N) :
    a ∈ PerfGrid.axesInd N i j ↔ a < N := by
  rw [axesInd_eq, List.mem_map]
  constructor
  · rintro ⟨b, hb, rfl⟩
    exact other_lt hi hj (List.mem_range.mp hb)
  · intro h
    exact ⟨other i j a, List.mem_range.mpr (other_lt hi hj h), other_other i j a⟩

theorem axesInd_perm {N i j : ℕ} (hi : i < N) (hj : j < N) :
    (PerfGrid.axesInd N i j).Perm (List.range N) :=
  (List.perm_ext_iff_of_nodup (axesInd_nodup N i j) List.nodup_range).mpr fun a => by
    rw [mem_axesInd hi hj, List.mem_range]

theorem elemNew_eq (axes : List (List α)) {i j : ℕ} (hi : i < axes.length) (hj : j < axes.length)
    (pos : ℕ → ℕ) : PerfGrid.elemNew axes (PerfGrid.axesInd axes.length i j) pos =
      rowMajor (sizes axes) ((List.range axes.length).map pos) := by
  unfold PerfGrid.elemNew
  rw [foldl_sum (fun a => PerfGrid.dimSize axes a * pos a), Nat.zero_add,
    ((axesInd_perm hi hj).map _).sum_eq, rowMajor_range]

theorem axisSize_eq (axes : List (List α)) : (List.range axes.length).map (PerfGrid.axisSize axes) =
    sizes axes := by
  apply List.ext_getElem
  · simp [sizes]
  · intro a h1 h2
    simp only [List.length_map, List.length_range] at h1
    simp [sizes, PerfGrid.axisSize, h1]

theorem inGrid_range (axes : List (List α)) (pos : ℕ → ℕ)
    (h : ∀ a < axes.length, pos a < PerfGrid.axisSize axes a) :
    InGrid (sizes axes) ((List.range axes.length).map pos) := by
  rw [← axisSize_eq, InGrid, List.forall₂_map_left_iff, List.forall₂_map_right_iff,
    List.forall₂_same]
  exact fun a ha => h a (List.mem_range.mp ha)

theorem prod_axesInd (axes : List (List α)) {i j : ℕ} (hi : i < axes.length) (hj : j < axes.length) :
    ((PerfGrid.axesInd axes.length i j).map (PerfGrid.axisSize axes)).prod = (sizes axes).prod := by
  rw [((axesInd_perm hi hj).map _).prod_eq, axisSize_eq]

theorem swapLoop_spec (axes : List (List α)) {i j : ℕ} (hi : i < axes.length) (hj : j < axes.length)
    (o0 o1 : List α) (h0 : o0.length = (sizes axes).prod) (h1 : o1.length = (sizes axes).prod) :
    ∀ (room : ℕ) (pos : ℕ → ℕ), (∀ a < axes.length, pos a < PerfGrid.axisSize axes a) →
      wheels (PerfGrid.axisSize axes) pos (PerfGrid.axesInd axes.length i j).reverse + room ≤
        (sizes axes).prod →
      ∃ r, PerfGrid.swapLoop axes (PerfGrid.axesInd axes.length i j) o0 o1 room pos = .ok r ∧
        r.1.length = room ∧ r.2.length = room ∧
        ∀ t < room, ∃ pos', (∀ a < axes.length, pos' a < PerfGrid.axisSize axes a) ∧
          wheels (PerfGrid.axisSize axes) pos' (PerfGrid.axesInd axes.length i j).reverse =
            wheels (PerfGrid.axisSize axes) pos (PerfGrid.axesInd axes.length i j).reverse + t ∧
          r.1[t]? = o0[PerfGrid.elemNew axes (PerfGrid.axesInd axes.length i j) pos']? ∧
          r.2[t]? = o1[PerfGrid.elemNew axes (PerfGrid.axesInd axes.length i j) pos']?
  | 0, pos, _, _ => ⟨([], []), rfl, rfl, rfl, by simp⟩
  | room + 1, pos, hb, hr => by
    set ind := PerfGrid.axesInd axes.length i j with hind
    have hmem : ∀ a, a ∈ ind.reverse ↔ a < axes.length := fun a => by
      rw [List.mem_reverse]; exact mem_axesInd hi hj
    have hlt : PerfGrid.elemNew axes ind pos < (sizes axes).prod := by
      rw [hind, elemNew_eq axes hi hj]
      exact rowMajor_lt (inGrid_range axes pos hb)
    obtain ⟨a1, a2, a3⟩ := advance_spec axes ind.reverse pos
      (List.nodup_reverse.mpr (axesInd_nodup _ _ _)) (fun a ha => hb a ((hmem a).mp ha))
    have hprod : (ind.reverse.map (PerfGrid.axisSize axes)).prod = (sizes axes).prod := by
      rw [List.map_reverse, List.prod_reverse]; exact prod_axesInd axes hi hj
    rw [hprod] at a3
    have hb' : ∀ a < axes.length, PerfGrid.advance axes ind.reverse pos a < PerfGrid.axisSize axes a :=
      fun a ha => a1 a ((hmem a).mpr ha)
    have hr' : wheels (PerfGrid.axisSize axes) (PerfGrid.advance axes ind.reverse pos) ind.reverse +
        room ≤ (sizes axes).prod := by
      rcases Nat.eq_zero_or_pos room with rfl | hp
      · have := wheels_lt a1
        rw [hprod] at this
        omega
      · rw [a3 (by omega)]; omega
    obtain ⟨r, e, l0, l1, hx⟩ := swapLoop_spec axes hi hj o0 o1 h0 h1 room _ hb' hr'
    have g0 : o0[PerfGrid.elemNew axes ind pos]? = some (o0[PerfGrid.elemNew axes ind pos]'(by omega)) :=
      List.getElem?_eq_getElem _
    have g1 : o1[PerfGrid.elemNew axes ind pos]? = some (o1[PerfGrid.elemNew axes ind pos]'(by omega)) :=
      List.getElem?_eq_getElem _
    refine ⟨(o0[PerfGrid.elemNew axes ind pos]'(by omega) :: r.1,
      o1[PerfGrid.elemNew axes ind pos]'(by omega) :: r.2), ?_, by simp [l0], by simp [l1], ?_⟩
    · rw [PerfGrid.swapLoop, g0, g1]
      dsimp only
      rw [e]
      rfl
    · rintro (_ | t) ht
      · exact ⟨pos, hb, by simp, by simp [g0], by simp [g1]⟩
      · obtain ⟨pos', p1, p2, p3, p4⟩ := hx t (by omega)
        refine ⟨pos', p1, ?_, by simpa using p3, by simpa using p4⟩
        rw [p2, a3 (by omega)]
        omega

theorem exchanged_swapEntries {β : Type} (l : List β) (i j : ℕ) (hi : i < l.length)
    (hj : j < l.length) : exchanged l (PerfGrid.swapEntries l i j hi hj) i j := by
  refine ⟨by simp [PerfGrid.swapEntries], fun a => ?_⟩
  unfold PerfGrid.swapEntries
  rw [List.getElem?_set, List.getElem?_set]
  simp only [List.length_set]
  by_cases h1 : j = a
  · subst h1
    by_cases h2 : j = i
    · subst h2; simp [hj]
    · simp [h2, hj, hi, List.getElem?_eq_getElem]
  · by_cases h2 : i = a
    · subst h2; simp [h1, hi, hj, List.getElem?_eq_getElem]
    · have h1' : ¬ a = j := fun e => h1 e.symm
      have h2' : ¬ a = i := fun e => h2 e.symm
      simp [h1, h2, h1', h2']

theorem exchanged_eq_map {β : Type} (l : List β) (d : β) {l' : List β} {i j : ℕ}
    (h : exchanged l l' i j) (hi : i < l.length) (hj : j < l.length) :
    l' = (List.range l.length).map fun a => l.getD (other i j a) d := by
  apply List.ext_getElem?
  intro a
  rw [h.2 a]
  by_cases ha : a < l.length
  · have := other_lt hi hj ha
    change l[other i j a]? = _
    simp [ha, this]
  · have h1 : other i j a = a := by unfold other; split_ifs <;> omega
    change l[other i j a]? = _
    rw [h1]
    simp [List.getElem?_eq_none (Nat.le_of_not_lt ha), Nat.le_of_not_lt ha]

theorem exchanged_symm {β : Type} {l l' : List β} {i j : ℕ} (h : exchanged l l' i j) :
    exchanged l' l i j :=
  ⟨h.1.symm, fun a => by
    change _ = l'[other i j a]?
    rw [h.2]
    change _ = l[other i j (other i j a)]?
    rw [other_other]⟩

theorem exchanged_unique {β : Type} {l l1 l2 : List β} {i j : ℕ} (h1 : exchanged l l1 i j)
    (h2 : exchanged l l2 i j) : l1 = l2 :=
  List.ext_getElem? fun a => (h1.2 a).trans (h2.2 a).symm

/-! ## C46 -/

/-- **C46.** Exchanging two axes of a complete performance grid always succeeds. The axes are exchanged;
in each of the first two tables the value at any grid point is the former value at the point with the
two coordinates exchanged; any further tables stay as they are. -/
theorem C46_swap (g : PerfGrid α) (hg : Complete g) (i j : ℕ) (hi : i < g.axes.length)
    (hj : j < g.axes.length) :
    ∃ g', g.swapAxes i j = .ok g' ∧ exchanged g.axes g'.axes i j ∧ Complete g' ∧
      g'.tables.length = g.tables.length ∧
      (∀ x x', InGrid (sizes g'.axes) x → exchanged x x' i j → InGrid (sizes g.axes) x' ∧
        ∀ k < 2, ∃ t t' v, g.tables[k]? = some t ∧ g'.tables[k]? = some t' ∧
          t'[rowMajor (sizes g'.axes) x]? = some v ∧ t[rowMajor (sizes g.axes) x']? = some v) ∧
      ∀ k, 2 ≤ k → g'.tables[k]? = g.tables[k]? := by
  obtain ⟨o0, o1, rest, ht, l0, l1⟩ := hg
  set ind := PerfGrid.axesInd g.axes.length i j with hind
  have hloop : ∃ r, PerfGrid.swapLoop g.axes ind o0 o1 o0.length (fun _ => 0) = .ok r ∧
      r.1.length = o0.length ∧ r.2.length = o0.length ∧
      ∀ t < o0.length, ∃ pos', (∀ a < g.axes.length, pos' a < PerfGrid.axisSize g.axes a) ∧
        wheels (PerfGrid.axisSize g.axes) pos' ind.reverse = t ∧
        r.1[t]? = o0[PerfGrid.elemNew g.axes ind pos']? ∧
        r.2[t]? = o1[PerfGrid.elemNew g.axes ind pos']? := by
    rcases Nat.eq_zero_or_pos (sizes g.axes).prod with hz | hp
    · rw [l0, hz]
      exact ⟨([], []), rfl, rfl, rfl, by simp⟩
    · have hpos : ∀ a < g.axes.length, 0 < PerfGrid.axisSize g.axes a := fun a ha => by
        rcases Nat.eq_zero_or_pos (PerfGrid.axisSize g.axes a) with h | h
        · have : (sizes g.axes).prod = 0 := by
            rw [← axisSize_eq]
            exact List.prod_eq_zero_iff.mpr (List.mem_map.mpr ⟨a, List.mem_range.mpr ha, h⟩)
          omega
        · exact h
      have hz : wheels (PerfGrid.axisSize g.axes) (fun _ => 0) ind.reverse = 0 := by
        have : ∀ as : List ℕ, wheels (PerfGrid.axisSize g.axes) (fun _ => 0) as = 0 := by
          intro as
          induction as with
          | nil => rfl
          | cons a as ih => rw [wheels, ih]; simp
        exact this _
      obtain ⟨r, e, a1, a2, a3⟩ := swapLoop_spec g.axes hi hj o0 o1 l0 l1 o0.length (fun _ => 0) hpos
        (by rw [← hind, hz, l0]; omega)
      refine ⟨r, e, a1, a2, fun t h => ?_⟩
      obtain ⟨pos', b1, b2, b3, b4⟩ := a3 t h
      rw [← hind, hz] at b2
      exact ⟨pos', b1, by omega, b3, b4⟩
  obtain ⟨r, e, a1, a2, a3⟩ := hloop
  have hex := exchanged_swapEntries g.axes i j hi hj
  have hsz : sizes (PerfGrid.swapEntries g.axes i j hi hj) =
      ind.map (PerfGrid.axisSize g.axes) := by
    rw [exchanged_eq_map g.axes [] hex hi hj, sizes, List.map_map, hind, axesInd_eq, List.map_map]
    rfl
  have hpr : (sizes (PerfGrid.swapEntries g.axes i j hi hj)).prod = (sizes g.axes).prod := by
    rw [hsz]; exact prod_axesInd g.axes hi hj
  have hdrop : o1.drop o0.length = [] := List.drop_eq_nil_of_le (by omega)
  refine ⟨{ axes := PerfGrid.swapEntries g.axes i j hi hj, tables := r.1 :: r.2 :: rest }, ?_, hex,
    ⟨r.1, r.2, rest, rfl, by rw [hpr, a1, l0], by rw [hpr, a2, l0]⟩, by simp [ht], ?_, ?_⟩
  · unfold PerfGrid.swapAxes
    rw [ht]
    dsimp only
    rw [dif_pos ⟨hi, hj⟩, if_neg (by omega), ← hind, e]
    simp [hdrop, bind, Except.bind, pure, Except.pure]
  · intro x x' hx hxx
    dsimp only at hx ⊢
    rw [hsz] at hx ⊢
    have hlen : x.length = g.axes.length := by
      rw [List.Forall₂.length_eq hx]; simp [hind, axesInd_eq]
    set pos : ℕ → ℕ := fun a => x.getD (other i j a) 0 with hpos
    have e1 : x' = (List.range g.axes.length).map pos := by
      rw [exchanged_eq_map x 0 hxx (by omega) (by omega), hlen]
    have e2 : x = ind.map pos := by
      rw [hind, axesInd_eq, List.map_map]
      apply List.ext_getElem?
      intro a
      by_cases ha : a < x.length
      · have : a < g.axes.length := by omega
        simp [hpos, other_other, ha, this]
      · have : ¬ a < g.axes.length := by omega
        simp [List.getElem?_eq_none (Nat.le_of_not_lt ha), this]
    have hin : ∀ a < g.axes.length, pos a < PerfGrid.axisSize g.axes a := by
      rw [e2, InGrid, List.forall₂_map_left_iff, List.forall₂_map_right_iff, List.forall₂_same] at hx
      exact fun a ha => hx a ((mem_axesInd hi hj).mpr ha)
    refine ⟨by rw [e1]; exact inGrid_range g.axes pos hin, fun k hk => ?_⟩
    have hlt := rowMajor_lt hx
    rw [prod_axesInd g.axes hi hj, ← l0] at hlt
    obtain ⟨pos', b1, b2, b3, b4⟩ := a3 _ hlt
    have hsame : ∀ a ∈ ind.reverse, pos' a = pos a := by
      refine wheels_inj (size := PerfGrid.axisSize g.axes) ?_ ?_ ?_
      · exact fun a ha => b1 a ((mem_axesInd hi hj).mp (List.mem_reverse.mp ha))
      · exact fun a ha => hin a ((mem_axesInd hi hj).mp (List.mem_reverse.mp ha))
      · rw [b2]
        conv_lhs => rw [e2]
        exact wheels_rowMajor _ _ _
    have hel : PerfGrid.elemNew g.axes ind pos' = rowMajor (sizes g.axes) x' := by
      rw [hind, elemNew_eq g.axes hi hj, e1]
      congr 1
      refine List.map_congr_left fun a ha => hsame a ?_
      rw [List.mem_reverse]
      exact (mem_axesInd hi hj).mpr (List.mem_range.mp ha)
    rw [hel] at b3 b4
    have hlt' : rowMajor (sizes g.axes) x' < o0.length := by
      rw [l0, e1]; exact rowMajor_lt (inGrid_range g.axes pos hin)
    have hk' : k = 0 ∨ k = 1 := by omega
    rcases hk' with rfl | rfl
    · exact ⟨o0, r.1, o0[rowMajor (sizes g.axes) x'], by simp [ht], by simp,
        by rw [b3, List.getElem?_eq_getElem hlt'], List.getElem?_eq_getElem hlt'⟩
    · have hlt1 : rowMajor (sizes g.axes) x' < o1.length := by omega
      exact ⟨o1, r.2, o1[rowMajor (sizes g.axes) x'], by simp [ht], by simp,
        by rw [b4, List.getElem?_eq_getElem hlt1], List.getElem?_eq_getElem hlt1⟩
  · intro k hk
    obtain ⟨k, rfl⟩ : ∃ k', k = k' + 2 := ⟨k - 2, by omega⟩
    simp [ht]

theorem exists_exchanged {β : Type} (l : List β) {i j : ℕ} (hi : i < l.length) (hj : j < l.length) :
    ∃ l', exchanged l l' i j := ⟨_, exchanged_swapEntries l i j hi hj⟩

theorem Spec.Complete.length_eq {g : PerfGrid α} (h : Complete g) (k : ℕ) (hk : k < 2) :
    ∃ t, g.tables[k]? = some t ∧ t.length = (sizes g.axes).prod := by
  obtain ⟨o0, o1, rest, ht, l0, l1⟩ := h
  have hk' : k = 0 ∨ k = 1 := by omega
  rcases hk' with rfl | rfl
  · exact ⟨o0, by simp [ht], l0⟩
  · exact ⟨o1, by simp [ht], l1⟩

/-- **C46.** Exchanging the same two axes twice restores the grid. -/
theorem C46_swap_twice (g : PerfGrid α) (hg : Complete g) (i j : ℕ) (hi : i < g.axes.length)
    (hj : j < g.axes.length) : (g.swapAxes i j >>= fun g' => g'.swapAxes i j) = .ok g := by
  obtain ⟨g1, e1, x1, c1, n1, v1, r1⟩ := C46_swap g hg i j hi hj
  have hl := x1.1
  obtain ⟨g2, e2, x2, c2, n2, v2, r2⟩ := C46_swap g1 c1 i j (by omega) (by omega)
  rw [e1]
  change g1.swapAxes i j = _
  rw [e2]
  have hax : g2.axes = g.axes := exchanged_unique x2 (exchanged_symm x1)
  have htab : g2.tables = g.tables := by
    apply List.ext_getElem?
    intro k
    by_cases hk : k < 2
    · obtain ⟨t, ht, lt⟩ := hg.length_eq k hk
      obtain ⟨t2, ht2, lt2⟩ := c2.length_eq k hk
      rw [ht, ht2]
      congr 1
      rw [hax] at lt2
      apply List.ext_getElem?
      intro m
      by_cases hm : m < (sizes g.axes).prod
      · obtain ⟨x, hx, rfl⟩ := rowMajor_surj _ _ hm
        have hlx : x.length = g.axes.length := by rw [List.Forall₂.length_eq hx]; simp [sizes]
        obtain ⟨x', hxx⟩ := exists_exchanged x (i := i) (j := j) (by omega) (by omega)
        obtain ⟨i1, w1⟩ := v2 x x' (by rw [hax]; exact hx) hxx
        obtain ⟨ta, tb, v, q1, q2, q3, q4⟩ := w1 k hk
        obtain ⟨i2, w2⟩ := v1 x' x i1 (exchanged_symm hxx)
        obtain ⟨tc, td, v', s1, s2, s3, s4⟩ := w2 k hk
        rw [ht2] at q2; cases q2
        rw [q1] at s2; cases s2
        rw [ht] at s1; cases s1
        rw [hax] at q3
        rw [q3, s4, ← s3, q4]
      · rw [List.getElem?_eq_none (by omega), List.getElem?_eq_none (by omega)]
    · rw [r2 k (by omega), r1 k (by omega)]
  cases g2
  cases g
  cases hax
  cases htab
  rfl

/-- A grid with three axes of sizes 2, 3 and 1, with values that tell where they come from. -/
def sampleGrid : PerfGrid ℚ where
  axes := [[1, 2], [10, 20, 30], [100]]
  tables := [[110, 120, 130, 210, 220, 230], [-110, -120, -130, -210, -220, -230], [7]]

example : Complete sampleGrid := ⟨_, _, _, rfl, rfl, rfl⟩

/-- The values move with their coordinates. -/
example : ∃ g', sampleGrid.swapAxes 0 1 = .ok g' ∧ g'.axes = [[10, 20, 30], [1, 2], [100]] ∧
    g'.tables = [[110, 210, 120, 220, 130, 230], [-110, -210, -120, -220, -130, -230], [7]] := by
  decide +kernel

example : InGrid (sizes [[10, 20, 30], [1, 2], [100]]) [2, 1, 0] ∧ exchanged [2, 1, 0] [1, 2, 0] 0 1 :=
  ⟨by simp [InGrid, sizes], by
    refine ⟨rfl, fun a => ?_⟩
    match a with
    | 0 | 1 | 2 => rfl
    | a + 3 => simp⟩

/-- Finding: an incomplete table is read out of range. -/
theorem C46_incomplete_undefined :
    ({ axes := [[1, 2], [10, 20]], tables := [[11, 12], [11, 12]] } : PerfGrid ℚ).swapAxes 0 1 =
      .error .ub := by
  decide +kernel

/-! ## C47 -/

theorem skipDuplicates_spec : ∀ (l : List ℚ) (p : ℚ), l.Pairwise (· ≤ ·) → (∀ x ∈ l, p ≤ x) →
    (skipDuplicates p l).Pairwise (· < ·) ∧ ∀ x, x ∈ skipDuplicates p l ↔ x ∈ l ∧ p < x
  | [], _, _, _ => by simp [skipDuplicates]
  | y :: l, p, hs, hp => by
    obtain ⟨h1, h2⟩ := List.pairwise_cons.mp hs
    obtain ⟨i1, i2⟩ := skipDuplicates_spec l y h2 h1
    have hy := hp y (by simp)
    rw [skipDuplicates]
    split_ifs with h
    · refine ⟨List.pairwise_cons.mpr ⟨fun x hx => ((i2 x).mp hx).2, i1⟩, fun x => ?_⟩
      rw [List.mem_cons, i2, List.mem_cons]
      constructor
      · rintro (rfl | ⟨hx, hlt⟩)
        · exact ⟨.inl rfl, h⟩
        · exact ⟨.inr hx, lt_trans h hlt⟩
      · rintro ⟨rfl | hx, hlt⟩
        · exact .inl rfl
        · rcases (h1 x hx).eq_or_lt with e | e
          · exact .inl e.symm
          · exact .inr ⟨hx, e⟩
    · obtain rfl : p = y := le_antisymm hy (not_lt.mp h)
      refine ⟨i1, fun x => ?_⟩
      rw [i2, List.mem_cons]
      constructor
      · rintro ⟨hx, hlt⟩; exact ⟨.inr hx, hlt⟩
      · rintro ⟨rfl | hx, hlt⟩
        · exact absurd hlt (lt_irrefl _)
        · exact ⟨hx, hlt⟩

/-- **C47.** Arranging a grid vector gives its values in strictly increasing order. -/
theorem C47_arrange (v : List ℚ) :
    (arrangeGridVector v).Pairwise (· < ·) ∧ ∀ x, x ∈ arrangeGridVector v ↔ x ∈ v := by
  have hs : (v.insertionSort (· ≤ ·)).Pairwise (· ≤ ·) := List.pairwise_insertionSort _ v
  have hm : ∀ x, x ∈ v.insertionSort (· ≤ ·) ↔ x ∈ v := fun x => List.mem_insertionSort _
  unfold arrangeGridVector
  cases hv : v.insertionSort (· ≤ ·) with
  | nil =>
    rw [hv] at hm
    exact ⟨.nil, hm⟩
  | cons y l =>
    rw [hv] at hs hm
    obtain ⟨h1, h2⟩ := List.pairwise_cons.mp hs
    obtain ⟨i1, i2⟩ := skipDuplicates_spec l y h2 h1
    refine ⟨List.pairwise_cons.mpr ⟨fun x hx => ((i2 x).mp hx).2, i1⟩, fun x => ?_⟩
    rw [← hm, List.mem_cons, List.mem_cons, i2]
    constructor
    · rintro (rfl | ⟨h, -⟩)
      · exact .inl rfl
      · exact .inr h
    · rintro (rfl | h)
      · exact .inl rfl
      · rcases (h1 x h).eq_or_lt with e | e
        · exact .inl e.symm
        · exact .inr ⟨h, e⟩

/-- **C47.** Trimming a grid vector gives those of its values that lie in the range, both ends included,
in strictly increasing order. -/
theorem C47_trim (v : List ℚ) (lo hi : ℚ) :
    (trimGridVector v lo hi).Pairwise (· < ·) ∧
      ∀ x, x ∈ trimGridVector v lo hi ↔ x ∈ v ∧ lo ≤ x ∧ x ≤ hi := by
  obtain ⟨h1, h2⟩ := C47_arrange v
  refine ⟨h1.filter _, fun x => ?_⟩
  simp [trimGridVector, h2]

/-- **C47.** A strictly increasing vector is left as it is. -/
theorem C47_arrange_arranged (v : List ℚ) (h : v.Pairwise (· < ·)) : arrangeGridVector v = v := by
  obtain ⟨h1, h2⟩ := C47_arrange v
  have hp : (arrangeGridVector v).Perm v :=
    (List.perm_ext_iff_of_nodup (h1.imp ne_of_lt) (h.imp ne_of_lt)).mpr h2
  exact hp.eq_of_pairwise (fun a b _ _ hab hba => absurd (lt_trans hab hba) (lt_irrefl _)) h1 h

example : arrangeGridVector [3, 1, 2, 3, 1] = [1, 2, 3] ∧ trimGridVector [3, 1, 2, 5, 1] 2 3 = [2, 3] := by
  decide +kernel

end HPWH
