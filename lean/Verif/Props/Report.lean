import Verif.Spec.Report
import Verif.Props.Profile
import Verif.Props.DayExample
import Verif.Props.Ports
import Mathlib.Tactic.Ring

/-! # Read-outs, tables and measured temperatures (C75–C77) -/

namespace HPWH

open Spec Sim _root_.HPWH.Units

variable {n k : ℕ}

/-! ## C75: tables -/

theorem columns_ne_nil (l : Line) : columns l ≠ [] := by
  induction l with
  | nil => simp [columns]
  | cons t l ih =>
    cases t <;> simp only [columns] <;> try exact List.cons_ne_nil _ _
    all_goals
      split <;> simp

theorem columns_cons {t : Tok} (ht : t ≠ .comma) {l c : Line} {cs : List Line} (h : columns l = c :: cs) :
    columns (t :: l) = (t :: c) :: cs := by
  cases t <;> simp_all [columns]

/-- Text before a comma is one cell. -/
theorem columns_cell (c : Line) (hc : ∀ t ∈ c, t ≠ Tok.comma) (l : Line) :
    columns (c ++ .comma :: l) = c :: columns l := by
  induction c with
  | nil => rfl
  | cons t c ih =>
    exact columns_cons (hc t (List.mem_cons_self ..)) (ih fun u hu => hc u (List.mem_cons_of_mem _ hu))

theorem columns_last (c : Line) (hc : ∀ t ∈ c, t ≠ Tok.comma) : columns c = [c] := by
  induction c with
  | nil => rfl
  | cons t c ih =>
    exact columns_cons (hc t (List.mem_cons_self ..)) (ih fun u hu => hc u (List.mem_cons_of_mem _ hu))

/-- Cells with a comma before each of them. -/
def joined (cells : List Line) : Line := cells.flatMap fun c => .comma :: c

theorem columns_joined (c : Line) (hc : ∀ t ∈ c, t ≠ Tok.comma) (cells : List Line)
    (h : ∀ x ∈ cells, ∀ t ∈ x, t ≠ Tok.comma) : columns (c ++ joined cells) = c :: cells := by
  induction cells generalizing c with
  | nil => simp only [joined, List.flatMap_nil, List.append_nil]; exact columns_last c hc
  | cons x cells ih =>
    have := ih x (h x (List.mem_cons_self ..)) fun y hy => h y (List.mem_cons_of_mem _ hy)
    simp only [joined, List.flatMap_cons, List.cons_append]
    rw [columns_cell c hc]
    exact congrArg (c :: ·) this

theorem joined_append (a b : List Line) : joined (a ++ b) = joined a ++ joined b := by
  simp [joined]

theorem joined_cons (c : Line) (b : List Line) : joined (c :: b) = .comma :: (c ++ joined b) := by
  simp [joined]

theorem joined_nil : joined [] = [] := rfl

/-- The heading of a table. -/
def headed (p : String × Option ℚ) : Line := [.text p.1]

theorem range_flatMap {α : Type} (m : ℕ) (f : ℕ → List α) :
    (List.range m).flatMap f = (List.finRange m).flatMap fun i => f i.val := by
  rw [← List.map_coe_finRange_eq_range, List.flatMap_map]

theorem joined_sources (input output : Fin k → ℚ) :
    joined ((sourceTable input output).map headed) = sourceNames k := by
  rw [sourceNames, range_flatMap, sourceTable, joined, List.map_flatMap, List.flatMap_assoc]
  rfl

theorem joined_thermocouples (m : ℕ) (ip : Bool) (T : Fin m → ℚ) :
    joined ((thermocoupleTable m ip T).map headed) = thermocoupleNames m ip := by
  rw [thermocoupleNames, range_flatMap, thermocoupleTable, joined, List.map_map, List.flatMap_map]
  rfl

theorem joined_outlet (ip drawing : Bool) (T : ℚ) :
    joined ((outletTable ip drawing T).map headed) = [.comma, .text ("toutlet (" ++ degrees ip ++ ")")] := rfl

theorem headed_noComma (l : List (String × Option ℚ)) :
    ∀ x ∈ l.map headed, ∀ t ∈ x, t ≠ Tok.comma := by
  intro x hx t ht
  obtain ⟨p, -, rfl⟩ := List.mem_map.mp hx
  simp only [headed, List.mem_singleton] at ht
  rw [ht]; simp

theorem shownT_eq (ip : Bool) (x : ℚ) : (if ip then C_TO_F x else x) = shownT ip x := by
  unfold shownT C_TO_F FperC offsetF; rfl

/-- Cells that show the values of a table. -/
structure Shows (cells : List Line) (table : List (String × Option ℚ)) : Prop where
  noComma : ∀ x ∈ cells, ∀ t ∈ x, t ≠ Tok.comma
  values : cells.map cellValue = table.map (·.2)

theorem Shows.append {a b : List Line} {ta tb : List (String × Option ℚ)} (ha : Shows a ta) (hb : Shows b tb) :
    Shows (a ++ b) (ta ++ tb) := by
  refine ⟨fun x hx => ?_, by rw [List.map_append, List.map_append, ha.values, hb.values]⟩
  rcases List.mem_append.mp hx with h | h
  · exact ha.noComma x h
  · exact hb.noComma x h

theorem Shows.one {c : Line} {p : String × Option ℚ} (h1 : ∀ t ∈ c, t ≠ Tok.comma) (h2 : cellValue c = p.2) :
    Shows [c] [p] :=
  ⟨by simpa using h1, by simpa using h2⟩

theorem sourceCells_eq (input output : Fin k → ℚ) :
    ∃ cells, sourceCells input output = joined cells ∧ Shows cells (sourceTable input output) := by
  refine ⟨(List.finRange k).flatMap fun i => [[.num 2 (input i * 1000)], [.num 2 (output i * 1000)]], ?_, ?_, ?_⟩
  · rw [sourceCells, joined, List.flatMap_assoc]; rfl
  · intro x hx t ht
    simp only [List.mem_flatMap, List.mem_cons, List.not_mem_nil, or_false] at hx
    obtain ⟨i, -, rfl | rfl⟩ := hx <;> simp only [List.mem_singleton] at ht <;> rw [ht] <;> simp
  · rw [sourceTable, List.map_flatMap, List.map_flatMap]; rfl

theorem thermocoupleCells_eq (m : ℕ) (ip : Bool) (T : Fin m → ℚ) :
    ∃ cells, ((List.finRange m).flatMap fun j => [Tok.comma, Tok.num 2 (shownT ip (T j))]) = joined cells ∧
      Shows cells (thermocoupleTable m ip T) := by
  refine ⟨(List.finRange m).map fun j => [Tok.num 2 (shownT ip (T j))], ?_, ?_, ?_⟩
  · rw [joined, List.flatMap_map]
  · intro x hx t ht
    obtain ⟨j, -, rfl⟩ := List.mem_map.mp hx
    simp only [List.mem_singleton] at ht
    rw [ht]; simp
  · rw [thermocoupleTable, List.map_map, List.map_map]; rfl

/-- **C75.** Every row of the table of a test or a run has a cell for each name in the heading, and the
cell shows the value that belongs to the name (`Spec.testTable`), whatever the number of heat sources, the
kind of compressor, the control and the units. -/
theorem C75_test_table (s : Sim n k) (shown : Shown) (r : TestRecord k) (ip : Bool) (h l : Line)
    (hh : s.testHeading ip = .ok h) (hl : s.testRow shown r ip = .ok l) :
    ∃ mp, s.isCompressorExternalMultipass = .ok mp ∧
      columns h = (testTable s mp shown.prevDR shown.targetSoC r ip).map (fun p => [Tok.text p.1]) ∧
      (columns l).map cellValue = (testTable s mp shown.prevDR shown.targetSoC r ip).map (·.2) := by
  unfold testHeading at hh
  unfold testRow at hl
  obtain ⟨mp, hmp, hh⟩ := (bind_ok_iff _ _ _).mp hh
  obtain ⟨mp', hmp', hl⟩ := (bind_ok_iff _ _ _).mp hl
  obtain rfl : mp = mp' := Except.ok.inj (hmp.symm.trans hmp')
  obtain ⟨soc, hsoc, hl⟩ := (bind_ok_iff _ _ _).mp hl
  obtain ⟨vol, hvol, hl⟩ := (bind_ok_iff _ _ _).mp hl
  simp only [pure, Except.pure, Except.ok.injEq] at hh hl
  have hv : vol = s.externalVolumeHeated / (378541 / 100000) := by
    simp only [getExternalVolumeHeated, volumeFromL, L_TO_GAL, LPerGal, Except.ok.injEq] at hvol
    exact hvol.symm
  refine ⟨mp, hmp, ?_, ?_⟩
  · subst hh
    have : (testTable s mp shown.prevDR shown.targetSoC r ip).map (fun p => [Tok.text p.1]) =
        [Tok.text "minutes"] :: (testTable s mp shown.prevDR shown.targetSoC r ip).tail.map headed := by
      rfl
    rw [this, ← columns_joined _ (by simp) _ (headed_noComma _)]
    congr 1
    simp only [testTable, List.cons_append, List.nil_append, List.tail_cons, List.map_cons, List.map_append,
      joined_append, joined_cons, joined_sources, joined_thermocouples, joined_outlet, headed]
    cases mp <;> cases s.socControl <;> simp [joined_cons, joined_nil, headed]
  · have hfirst : Shows [[Tok.num 6 r.time_min]] [("minutes", some r.time_min)] :=
      .one (by simp) (by simp [cellValue])
    have h2 : Shows [[.text " ", .num 6 r.ambientT], [.text " ", .num 6 r.setpointT]]
        [("Ta", some r.ambientT), ("Tsetpoint", some r.setpointT)] :=
      .append (.one (by simp) (by simp [cellValue])) (.one (by simp) (by simp [cellValue]))
    have hopt : ∀ (nm : String) (x : ℚ), ∃ c, (if r.draw_L > 0 then [Tok.comma, Tok.text " ", Tok.num 6 x]
        else [Tok.comma]) = joined [c] ∧ Shows [c] [(nm, if r.draw_L > 0 then some x else none)] := by
      intro nm x
      by_cases hd : r.draw_L > 0
      · exact ⟨[.text " ", .num 6 x], by simp [hd, joined],
          .one (by simp) (by simp [cellValue, hd])⟩
      · exact ⟨[], by simp [hd, joined], .one (by simp) (by simp [cellValue, hd])⟩
    obtain ⟨c3, e3, s3⟩ := hopt "inletT" r.inletT
    obtain ⟨c4, e4, s4⟩ := hopt "draw" (L_TO_GAL r.draw_L)
    have h5 : ∃ cs, (if mp then [.comma, .text " ", .num 6 s.condenserInlet, .comma, .text " ",
        .num 6 s.condenserOutlet, .comma, .text " ", .num 6 vol] else []) = joined cs ∧
        Shows cs (if mp then [("condenserInletT", some s.condenserInlet),
          ("condenserOutletT", some s.condenserOutlet),
          ("externalVolGPM", some (s.externalVolumeHeated / (378541 / 100000)))] else []) := by
      cases mp
      · exact ⟨[], rfl, by simp, rfl⟩
      · refine ⟨[[.text " ", .num 6 s.condenserInlet], [.text " ", .num 6 s.condenserOutlet],
          [.text " ", .num 6 vol]], by simp [joined], by simp, ?_⟩
        simp [cellValue, hv]
    obtain ⟨c5, e5, s5⟩ := h5
    have h6 : ∃ cs, soc = joined cs ∧ Shows cs (if s.socControl.isSome then
        [("targetSoCFract", shown.targetSoC), ("soCFract", some s.soc)] else []) := by
      unfold socCells at hsoc
      by_cases hs : s.socControl.isSome
      · rw [if_pos hs] at hsoc ⊢
        cases ht : shown.targetSoC with
        | none => rw [ht] at hsoc; cases hsoc
        | some x =>
          rw [ht] at hsoc
          refine ⟨[[.text " ", .num 6 x], [.text " ", .num 6 s.soc]], ?_, by simp, by simp [cellValue]⟩
          rw [← Except.ok.inj hsoc]; simp [joined]
      · rw [if_neg hs] at hsoc ⊢
        exact ⟨[], by rw [← Except.ok.inj hsoc]; rfl, by simp, rfl⟩
    obtain ⟨c6, e6, s6⟩ := h6
    have h7 : Shows [[.text " ", .num 0 shown.prevDR]] [("DRstatus", some shown.prevDR)] :=
      .one (by simp) (by simp [cellValue])
    obtain ⟨c8, e8, s8⟩ := sourceCells_eq r.input_kWh r.output_kWh
    obtain ⟨c9, e9, s9⟩ := thermocoupleCells_eq 6 ip r.thermocoupleT
    have h10 : ∃ c, (if r.draw_L > 0 then [.comma, .num 2 (shownT ip r.outletT)] else [.comma]) =
        joined [c] ∧ Shows [c] (outletTable ip (decide (r.draw_L > 0)) r.outletT) := by
      by_cases hd : r.draw_L > 0
      · exact ⟨[.num 2 (shownT ip r.outletT)], by simp [hd, joined],
          .one (by simp) (by simp [cellValue, hd])⟩
      · exact ⟨[], by simp [hd, joined], .one (by simp) (by simp [cellValue, hd])⟩
    obtain ⟨c10, e10, s10⟩ := h10
    have hall := ((((((((hfirst.append h2).append (s3.append s4)).append s5).append s6).append h7).append
      s8).append s9).append s10)
    have e : l = [.num 6 r.time_min] ++ joined ([[.text " ", .num 6 r.ambientT], [.text " ", .num 6 r.setpointT]] ++
        ([c3] ++ [c4]) ++ c5 ++ c6 ++ [[.text " ", .num 0 shown.prevDR]] ++ c8 ++ c9 ++ [c10]) := by
      rw [← hl]
      simp only [shownT_eq]
      rw [e3, e4, e5, e6, e8, e9, e10]
      simp [joined_append, joined_cons, joined_nil]
    rw [e, columns_joined _ (by simp) _ fun x hx => hall.noComma x (by
      simp only [List.append_assoc, List.cons_append, List.nil_append] at hx ⊢
      exact List.mem_cons_of_mem _ hx)]
    have hv := hall.values
    simp only [List.append_assoc, List.cons_append, List.nil_append] at hv ⊢
    rw [hv]
    simp [testTable, L_TO_GAL, LPerGal]

/-- The thermocouples of a record are those of the tank: averages over sixths of its height. -/
theorem thermocouples_eq (s : Sim n k) (j : Fin 6) :
    s.thermocouples j = profileAverage s.tank.nodeTs ((j : ℚ) / 6) (((j : ℚ) + 1) / 6) := by
  unfold thermocouples
  rw [C21_thermocouple_value s.tank _ 6 (by omega) (by have := j.isLt; omega)]
  push_cast
  simp

theorem columns_preamble (p l : Line) : columns (p ++ .comma :: l) = columns p ++ columns l := by
  induction p with
  | nil => rfl
  | cons t p ih =>
    by_cases ht : t = .comma
    · subst ht; simp [columns, ih]
    · cases h : columns p with
      | nil => exact absurd h (columns_ne_nil p)
      | cons c cs =>
        rw [h] at ih
        rw [columns_cons ht h, List.cons_append, columns_cons ht ih]
        rfl

/-- The table of a state. -/
def Spec.stateTable (s : Sim n k) (dr : ℚ) (m : ℕ) (ip drawing : Bool) : List (String × Option ℚ) :=
  [("DRstatus", some dr)] ++
  sourceTable (fun i => (s.st i).energyInput_kWh) (fun i => (s.st i).energyOutput_kWh) ++
  thermocoupleTable m ip (fun j => profileAverage s.tank.nodeTs ((j : ℚ) / m) (((j : ℚ) + 1) / m)) ++
  outletTable ip drawing s.tank.outletT

theorem csvHeading_columns (s : Sim n k) (dr : ℚ) (m : ℕ) (ip drawing : Bool) :
    columns (csvHeading k [] m ip) =
      (stateTable s dr m ip drawing).map (fun p => [Tok.text p.1]) := by
  have : (stateTable s dr m ip drawing).map (fun p => [Tok.text p.1]) =
      [Tok.text "DRstatus"] :: (stateTable s dr m ip drawing).tail.map headed := rfl
  rw [this, ← columns_joined _ (by simp) _ (headed_noComma _)]
  congr 1
  simp only [stateTable, List.cons_append, List.nil_append, List.tail_cons, List.map_append,
    joined_append, joined_sources, joined_thermocouples, joined_outlet, csvHeading, Int.toNat_natCast]

theorem mapM_range_ok {α : Type} (m : ℕ) (f : ℕ → Res α) (g : Fin m → α)
    (h : ∀ i : Fin m, f i = .ok (g i)) : (List.range m).mapM f = .ok ((List.finRange m).map g) := by
  rw [← List.map_coe_finRange_eq_range]
  generalize List.finRange m = l
  induction l with
  | nil => rfl
  | cons i l ih =>
    rw [List.map_cons, List.mapM_cons, h i, ih]; rfl

theorem csvRow_columns (s : Sim n k) (shown : Shown) (m : ℕ) (ip drawing : Bool) :
    ∃ l, (∀ q, s.csvRow shown q m ip drawing = .ok (q ++ l)) ∧
      (columns l).map cellValue = (stateTable s shown.prevDR m ip drawing).map (·.2) := by
  have ht : ∀ i : Fin m, s.getNthSimTcouple (((i : ℕ) : ℤ) + 1) m (if ip then .F else .C) =
      .ok (shownT ip (profileAverage s.tank.nodeTs ((i : ℚ) / m) (((i : ℚ) + 1) / m))) := by
    intro i
    unfold getNthSimTcouple
    rw [C21_thermocouple_value s.tank _ m (by omega) (by have := i.isLt; omega)]
    cases ip <;> simp [bind, Except.bind, tempFromC, shownT, C_TO_F, FperC, offsetF]
  obtain ⟨c8, e8, s8⟩ := sourceCells_eq (fun i => (s.st i).energyInput_kWh) (fun i => (s.st i).energyOutput_kWh)
  obtain ⟨c9, e9, s9⟩ := thermocoupleCells_eq m ip
    (fun j => profileAverage s.tank.nodeTs ((j : ℚ) / m) (((j : ℚ) + 1) / m))
  have h10 : ∃ c, (if drawing then [.comma, .num 2 (shownT ip s.tank.outletT)] else [.comma]) =
      joined [c] ∧ Shows [c] (outletTable ip drawing s.tank.outletT) := by
    cases drawing
    · exact ⟨[], by simp [joined], .one (by simp) (by simp [cellValue])⟩
    · exact ⟨[.num 2 (shownT ip s.tank.outletT)], by simp [joined], .one (by simp) (by simp [cellValue])⟩
  obtain ⟨c10, e10, s10⟩ := h10
  have h1 : Shows [[Tok.num 0 shown.prevDR]] [("DRstatus", some shown.prevDR)] :=
    .one (by simp) (by simp [cellValue])
  have hall := ((h1.append s8).append s9).append s10
  refine ⟨[.num 0 shown.prevDR] ++ joined (c8 ++ c9 ++ [c10]), ?_, ?_⟩
  · intro q
    unfold csvRow
    simp only [Int.toNat_natCast]
    rw [mapM_range_ok m _ _ ht]
    simp only [bind, Except.bind, pure, Except.pure, Except.ok.injEq, shownT_eq, List.flatMap_map]
    rw [e8, e9, e10]
    simp [joined_append]
  · rw [columns_joined _ (by simp) _ fun x hx => hall.noComma x (by
      simp only [List.append_assoc, List.cons_append, List.nil_append] at hx ⊢
      exact List.mem_cons_of_mem _ hx)]
    have hv := hall.values
    simp only [List.append_assoc, List.cons_append, List.nil_append] at hv ⊢
    rw [hv]
    simp [stateTable]

/-- **C75.** The same for the functions that write the state to a user's file, with any number of
thermocouples: after the user's own columns (a preamble that ends with a comma, or none) a row has a cell
for each name in the heading, and it shows the value that belongs to the name. Writing a row does not
fail. -/
theorem C75_state_table (s : Sim n k) (shown : Shown) (m : ℕ) (ip drawing : Bool) (p q : Line) :
    ∃ l l₀ cells, s.csvRow shown (q ++ [.comma]) m ip drawing = .ok l ∧
      s.csvRow shown [] m ip drawing = .ok l₀ ∧
      columns (csvHeading k (p ++ [.comma]) m ip) =
        columns p ++ (stateTable s shown.prevDR m ip drawing).map (fun p => [Tok.text p.1]) ∧
      columns (csvHeading k [] m ip) =
        (stateTable s shown.prevDR m ip drawing).map (fun p => [Tok.text p.1]) ∧
      columns l = columns q ++ cells ∧ columns l₀ = cells ∧
      cells.map cellValue = (stateTable s shown.prevDR m ip drawing).map (·.2) := by
  obtain ⟨l, h1, h2⟩ := csvRow_columns s shown m ip drawing
  refine ⟨q ++ [.comma] ++ l, l, columns l, h1 _, by simpa using h1 [], ?_, csvHeading_columns s _ m ip drawing,
    by rw [List.append_assoc]; exact columns_preamble q l, rfl, h2⟩
  rw [← csvHeading_columns s shown.prevDR m ip drawing, ← columns_preamble]
  congr 1
  simp [csvHeading]

/-- **C75.** In particular all rows have as many columns as the heading if the preambles have. -/
theorem C75_same_length (s : Sim n k) (shown : Shown) (m : ℕ) (ip drawing : Bool) (p q l : Line)
    (hpq : (columns p).length = (columns q).length)
    (h : s.csvRow shown (q ++ [.comma]) m ip drawing = .ok l) :
    (columns l).length = (columns (csvHeading k (p ++ [.comma]) m ip)).length := by
  obtain ⟨l', l₀, cells, h1, -, h3, -, h5, -, h7⟩ := C75_state_table s shown m ip drawing p q
  obtain rfl : l' = l := Except.ok.inj (h1.symm.trans h)
  have := congrArg List.length h7
  simp only [List.length_map] at this
  rw [h3, h5, List.length_append, List.length_append, List.length_map, this, hpq]

/-- Finding: without a compressor the table of a test or a run cannot be written at all. -/
theorem C75_no_compressor_fails (s : Sim n k) (h : s.cfg.compressorIndex = none) (shown : Shown)
    (r : TestRecord k) (ip : Bool) :
    s.testHeading ip = .error .error ∧ s.testRow shown r ip = .error .error := by
  have : s.isCompressorExternalMultipass = .error .error := by
    simp [isCompressorExternalMultipass, compressor, h, bind, Except.bind]
  constructor
  · unfold testHeading; rw [this]; rfl
  · unfold testRow; rw [this]; rfl

example : ∃ h, sampleSim.testHeading true = .ok h ∧ (columns h).length = 5 + 1 + 2 * 2 + 6 + 1 ∧
    (columns h)[1]? = some [Tok.text "Ta"] := by decide +kernel

/-- A record with a draw of two gallons. -/
def sampleRecord : TestRecord 2 where
  time_min := 7
  ambientT := 20
  setpointT := 50
  inletT := 10
  draw_L := 757082 / 100000
  outletT := 49
  input_kWh := ![1 / 2, 1 / 4]
  output_kWh := ![1, 1 / 4]
  thermocoupleT := fun j => 40 + j

/-- A row for a multi-pass compressor with a draw: the gallons drawn, the condenser's water and the outlet
temperature in °F are under their names. -/
def sampleMultipass : Sim 3 2 :=
  { sampleCentral with
    cfg := { sampleCentral.cfg with
      src := ![{ sampleExt with kind := .condenser sampleMpCond }, sampleSim.cfg.src 1] }
    condenserInlet := 30, condenserOutlet := 35 }

example : ∃ l, sampleMultipass.testRow ⟨1, none⟩ sampleRecord true = .ok l ∧
    (columns l).map cellValue = [some 7, some 20, some 50, some 10, some 2, some 30, some 35,
      some (sampleMultipass.externalVolumeHeated / (378541 / 100000)), some 1, some 500, some 1000, some 250,
      some 250, some 104, some (529 / 5), some (538 / 5), some (547 / 5), some (556 / 5), some 113,
      some (601 / 5)] := by decide +kernel

example : ∃ h, sampleMultipass.testHeading true = .ok h ∧ (columns h)[4]? = some [Tok.text "draw"] ∧
    (columns h)[6]? = some [Tok.text "condenserOutletT"] ∧
    (columns h)[19]? = some [Tok.text "toutlet (F)"] := by decide +kernel

example : ∃ l, sampleSim.csvRow ⟨0, none⟩ [.num 0 5, .comma] 3 false false = .ok l ∧
    (columns l).length = 1 + 1 + 4 + 3 + 1 := by decide +kernel

/-- Finding: with state-of-charge control and no target set through `setTargetSoCFraction`, writing a row
reads a variable that has no value. -/
theorem C75_target_unset (s : Sim n k) (hs : s.socControl.isSome = true) (x : ℚ) (r : TestRecord k) (ip mp : Bool)
    (hm : s.isCompressorExternalMultipass = .ok mp) :
    s.testRow ⟨x, none⟩ r ip = .error .ub := by
  unfold testRow
  rw [hm]
  simp [bind, Except.bind, socCells, hs]

/-! ## C76 -/

theorem stoi_C : stoi ['C'] = .error .error := by decide +kernel

theorem searchTankT_eq (l g : List Char) (h : searchTankT l = some g) : g = ['C'] := by
  induction l with
  | nil => cases h
  | cons c l ih =>
    unfold searchTankT at h
    split at h
    · exact (Option.some.inj h).symm
    · exact ih h

theorem heading_none {line : List Char} (h : searchTankT line = none) (es : List (List Char)) (i : ℕ)
    (q : Measured) :
    ∃ q', Measured.heading line i es q = .ok q' ∧ q'.iNodes = q.iNodes ∧ q'.Ts = q.Ts ∧ q'.irow = q.irow := by
  induction es generalizing i q with
  | nil => exact ⟨q, rfl, rfl, rfl, rfl⟩
  | cons e es ih =>
    unfold Measured.heading
    simp only [h]
    obtain ⟨q', h1, h2, h3, h4⟩ := ih (i + 1) (if e = "Time(min)".toList then { q with iTime := i } else q)
    refine ⟨q', h1, h2.trans ?_, h3.trans ?_, h4.trans ?_⟩ <;> split <;> rfl

theorem heading_some {line g : List Char} (h : searchTankT line = some g) (e : List Char)
    (es : List (List Char)) (i : ℕ) (q : Measured) :
    Measured.heading line i (e :: es) q = .error .error := by
  obtain rfl := searchTankT_eq _ _ h
  unfold Measured.heading
  simp only [h, stoi_C]
  rfl

theorem lines_empty (stod : List Char → Res ℚ) (iMin : ℤ) (file : List (List Char)) (q : Measured)
    (h1 : q.iNodes = []) (h2 : q.Ts = []) (h3 : q.irow = 0) :
    Measured.lines stod iMin file q = .error .error ∨
      ∃ q', Measured.lines stod iMin file q = .ok q' ∧ q'.Ts = [] := by
  induction file generalizing q with
  | nil => exact .inr ⟨q, rfl, h2⟩
  | cons l ls ih =>
    unfold Measured.lines Measured.line
    simp only [h3, if_true]
    cases hs : searchTankT l with
    | none =>
      obtain ⟨q', a, b, c, d⟩ := heading_none hs (l.splitOn ',') 0 q
      rw [a]
      simp only [bind, Except.bind, Bool.false_eq_true, if_false]
      refine ih _ (b.trans h1) ?_ (d.trans h3)
      rw [c, h2, b, h1]; rfl
    | some g =>
      left
      cases he : l.splitOn ',' with
      | nil => exact absurd he (List.splitOn_ne_nil _ _)
      | cons e es => rw [heading_some hs]; rfl

/-- **C76, negative.** No file loads: whatever the lines of the file, the time and the simulator,
`setTankFromMeasured` ends with an error. A heading that names a tank temperature as the expression has it
(`TankT1C`, not `TankT1(C)`) makes the conversion of `C` to a number fail; any other file gives no
temperatures, as all lines are taken for headings. -/
theorem C76_never_loads (stod : List Char → Res ℚ) (file : List (List Char)) (iMin : ℤ) (s : Sim n k) :
    s.setTankFromMeasured stod file iMin = .error .error := by
  unfold setTankFromMeasured
  rcases lines_empty stod iMin file ⟨[], [], [], -1, 0⟩ rfl rfl rfl with h | ⟨q, h, hq⟩
  · rw [h]; rfl
  · rw [h]
    simp [bind, Except.bind, hq, pure, Except.pure, Tank.setNodeTs]

example : sampleSim.setTankFromMeasured (fun _ => .ok 50)
    ["Time(min),TankT1(C),TankT2(C)".toList, "0,50.1,48.2".toList, "1,50.0,48.0".toList] 0 = .error .error :=
  C76_never_loads _ _ _ _

example : sampleSim.setTankFromMeasured (fun _ => .ok 50)
    ["Time(min),TankT1C,TankT2C".toList, "0,50.1,48.2".toList] 0 = .error .error :=
  C76_never_loads _ _ _ _

/-! ## C77 -/

/-- The read-outs of an energy `x` (kWh) in the units that can be asked for, and no others. -/
def Spec.ReadsEnergy (read : UnitTag → Res ℚ) (x : ℚ) : Prop :=
  read .KWH = .ok x ∧ read .BTU = .ok (x * (341214163312794 / 100000000000)) ∧ read .KJ = .ok (x * 3600) ∧
  ∀ u, u ≠ .KWH → u ≠ .BTU → u ≠ .KJ → read u = .error .error

/-- The read-outs of a temperature `x` (°C). -/
def Spec.ReadsTemperature (read : UnitTag → Res ℚ) (x : ℚ) : Prop :=
  read .C = .ok x ∧ read .F = .ok (9 / 5 * x + 32) ∧ ∀ u, u ≠ .C → u ≠ .F → read u = .error .error

/-- The read-outs of a volume `x` (L). -/
def Spec.ReadsVolume (read : UnitTag → Res ℚ) (x : ℚ) : Prop :=
  read .L = .ok x ∧ read .GAL = .ok (x / (378541 / 100000)) ∧
  ∀ u, u ≠ .L → u ≠ .GAL → read u = .error .error

theorem energyFromKWH_reads (x : ℚ) : ReadsEnergy (fun u => energyFromKWH u x) x := by
  refine ⟨rfl, ?_, ?_, ?_⟩
  · simp only [energyFromKWH, KWH_TO_BTU, BTUperKWH, mul_comm]
  · simp only [energyFromKWH, KWH_TO_KJ, secPerHr, secPerMin, minPerHr]; norm_num
  · intro u h1 h2 h3; cases u <;> first | rfl | contradiction

theorem tempFromC_reads (x : ℚ) : ReadsTemperature (fun u => tempFromC u x) x := by
  refine ⟨rfl, ?_, ?_⟩
  · simp only [tempFromC, C_TO_F, FperC, offsetF]
  · intro u h1 h2; cases u <;> first | rfl | contradiction

theorem volumeFromL_reads (x : ℚ) : ReadsVolume (fun u => volumeFromL u x) x := by
  refine ⟨rfl, ?_, ?_⟩
  · simp only [volumeFromL, L_TO_GAL, LPerGal]
  · intro u h1 h2; cases u <;> first | rfl | contradiction

theorem nthSource_ok (j : Fin k) : nthSource k ((j : ℕ) : ℤ) = .ok j := by
  unfold nthSource
  rw [dif_pos (by have := j.isLt; omega)]
  simp

theorem nthSource_error (i : ℤ) (h : ∀ j : Fin k, i ≠ ((j : ℕ) : ℤ)) : nthSource k i = .error .error := by
  unfold nthSource
  rw [dif_neg]
  intro hc
  exact h ⟨i.toNat, by omega⟩ (by simp; omega)

/-- **C77.** A read-out in one unit is the same quantity as in any other, and a unit of another kind is
rejected: volumes, heat sources' energies, run times, losses, temperatures. -/
theorem C77_readouts (s : Sim n k) (j : Fin k) :
    ReadsEnergy (s.getNthEnergyInput ((j : ℕ) : ℤ)) (s.st j).energyInput_kWh ∧
    ReadsEnergy (s.getNthEnergyOutput ((j : ℕ) : ℤ)) (s.st j).energyOutput_kWh ∧
    s.getNthRunTime ((j : ℕ) : ℤ) = .ok (s.st j).runtime_min ∧
    s.isNthRunning ((j : ℕ) : ℤ) = .ok (s.st j).isOn ∧
    ReadsVolume s.getExternalVolumeHeated s.externalVolumeHeated ∧
    ReadsEnergy s.getEnergyRemoved s.energyRemoved_kWh ∧
    ReadsEnergy s.getStandbyLosses s.standbyLosses_kWh ∧
    ReadsTemperature s.getOutletTemp s.tank.outletT ∧
    ReadsTemperature s.getCondenserInletTemp s.condenserInlet ∧
    ReadsTemperature s.getCondenserOutletTemp s.condenserOutlet := by
  refine ⟨?_, ?_, ?_, ?_, volumeFromL_reads _, energyFromKWH_reads _, energyFromKWH_reads _,
    tempFromC_reads _, tempFromC_reads _, tempFromC_reads _⟩
  · have : s.getNthEnergyInput ((j : ℕ) : ℤ) = fun u => energyFromKWH u (s.st j).energyInput_kWh := by
      funext u; unfold getNthEnergyInput; rw [nthSource_ok]; rfl
    rw [this]; exact energyFromKWH_reads _
  · have : s.getNthEnergyOutput ((j : ℕ) : ℤ) = fun u => energyFromKWH u (s.st j).energyOutput_kWh := by
      funext u; unfold getNthEnergyOutput; rw [nthSource_ok]; rfl
    rw [this]; exact energyFromKWH_reads _
  · unfold getNthRunTime; rw [nthSource_ok]; rfl
  · unfold isNthRunning; rw [nthSource_ok]; rfl

/-- **C77.** A number that is not the number of a heat source is rejected, whatever the unit. -/
theorem C77_no_such_source (s : Sim n k) (i : ℤ) (h : ∀ j : Fin k, i ≠ ((j : ℕ) : ℤ)) (u : UnitTag) :
    s.getNthEnergyInput i u = .error .error ∧ s.getNthEnergyOutput i u = .error .error ∧
    s.getNthRunTime i = .error .error ∧ s.isNthRunning i = .error .error := by
  unfold getNthEnergyInput getNthEnergyOutput getNthRunTime isNthRunning
  rw [nthSource_error i h]
  exact ⟨rfl, rfl, rfl, rfl⟩

/-- **C77.** The `i`-th of `m` thermocouples reads the average over its part of the tank, in either unit;
others are rejected. -/
theorem C77_thermocouple (s : Sim n k) (i m : ℕ) (h1 : 1 ≤ i) (h2 : i ≤ m) :
    ReadsTemperature (s.getNthSimTcouple i m)
      (profileAverage s.tank.nodeTs (((i : ℚ) - 1) / m) ((i : ℚ) / m)) := by
  have : s.getNthSimTcouple i m =
      fun u => tempFromC u (profileAverage s.tank.nodeTs (((i : ℚ) - 1) / m) ((i : ℚ) / m)) := by
    funext u
    unfold getNthSimTcouple
    rw [C21_thermocouple_value s.tank _ m (by omega) (by omega)]
    simp [bind, Except.bind]
  rw [this]; exact tempFromC_reads _

/-- **C77.** Flow rate and least run time of the compressor. Without a compressor there is neither, and
the flow rate exists only for an external multi-pass one. -/
theorem C77_compressor (s : Sim n k) :
    (∀ j c, s.compressor = .ok (j, c) →
      s.getCompressorMinRuntime .MIN = .ok 10 ∧ s.getCompressorMinRuntime .SEC = .ok 600 ∧
      s.getCompressorMinRuntime .HR = .ok (1 / 6) ∧
      (c.isMultipass = true ∧ c.configuration = .external →
        s.getExternalMPFlowRate .LPS = .ok c.mpFlowRate_LPS ∧
        s.getExternalMPFlowRate .GPM = .ok (c.mpFlowRate_LPS * 60 / (378541 / 100000))) ∧
      (¬(c.isMultipass = true ∧ c.configuration = .external) →
        ∀ u, s.getExternalMPFlowRate u = .error .error)) ∧
    (s.cfg.compressorIndex = none → ∀ u, s.getCompressorMinRuntime u = .error .error ∧
      s.getExternalMPFlowRate u = .error .error ∧ s.isCompressorRunning = .error .error) := by
  constructor
  · intro j c hc
    unfold getCompressorMinRuntime getExternalMPFlowRate isCompressorExternalMultipass
    rw [hc]
    simp only [bind, Except.bind, timeFromMin, MIN_TO_SEC, MIN_TO_HR, secPerMin, minPerHr, Except.ok.injEq]
    refine ⟨trivial, by norm_num, by norm_num, ?_, ?_⟩
    · rintro ⟨h1, h2⟩
      simp only [h1, h2, decide_true, Bool.and_self, if_true, flowFromLPS, true_and, Except.ok.injEq]
      simp only [LPS_TO_GPM, secPerMin, LPerGal]
    · intro h u
      rw [if_neg (by simpa using h)]
  · intro h u
    refine ⟨by simp [getCompressorMinRuntime, compressor, h, bind, Except.bind],
      by simp [getExternalMPFlowRate, isCompressorExternalMultipass, compressor, h, bind, Except.bind], ?_⟩
    simp only [isCompressorRunning, h, isNthRunning, nthSource_error (k := k) (-1) (by intro j; omega)]
    rfl

example : sampleSim.getNthEnergyInput 1 .KJ = .ok ((sampleSim.st 1).energyInput_kWh * 3600) ∧
    sampleSim.getNthEnergyInput 2 .KJ = .error .error :=
  ⟨(C77_readouts sampleSim 1).1.2.2.1, (C77_no_such_source sampleSim 2 (by decide) .KJ).1⟩

example : ∃ x, sampleMultipass.getExternalMPFlowRate .GPM = .ok x ∧ 0 < x := by decide +kernel

example : ∃ x, sampleSim.getNthSimTcouple 2 5 .F = .ok x ∧ 32 < x := by decide +kernel

end HPWH
