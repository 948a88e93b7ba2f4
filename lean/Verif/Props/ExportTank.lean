import Verif.Model.Import
import Verif.Spec.Export
import Verif.Props.TankUpdate
import Mathlib.Tactic.Linarith
import Mathlib.Tactic.Ring
import Mathlib.Tactic.FieldSimp

/-! # C43, C45, C71: tank, texts and ratings after export and import -/

namespace HPWH

open Spec

variable {n : ℕ}

/-! ## Tank -/

/-- **C43.** Exporting a tank and importing the description into a tank reproduces volume, heat-loss
coefficients, mixing on draws and heat exchanger. A tank that mixes on draws must do so below a positive
fraction of its height (with another fraction it mixes nothing). -/
theorem C43_tank_settings (t base : Tank n) (i : Info)
    (h : t.mixesOnDraw = true → t.mixBelowFractionOnDraw > 0) :
    SameTankSettings (base.ofRs (t.toRs i)) t := by
  refine ⟨?_, ?_, ?_, ?_, ?_, ?_, ?_⟩
  · simp [Tank.ofRs, Tank.toRs]; ring
  · simp [Tank.ofRs, Tank.toRs]; ring
  · simp [Tank.ofRs, Tank.toRs]; ring
  · cases hm : t.mixesOnDraw <;> simp [Tank.ofRs, Tank.toRs, hm]
    exact h hm
  · intro hm; simp [Tank.ofRs, Tank.toRs, hm]
  · cases hm : t.hasHeatExchanger <;> simp [Tank.ofRs, Tank.toRs, hm]
  · intro hm; simp [Tank.ofRs, Tank.toRs, hm]

/-- Nothing else about the tank changes. -/
theorem C43_rest_kept (t base : Tank n) (i : Info) :
    let a := base.ofRs (t.toRs i)
    a.nodeTs = base.nodeTs ∧ a.inletHeight = base.inletHeight ∧ a.inlet2Height = base.inlet2Height ∧
      a.doInversionMixing = base.doInversionMixing ∧ a.doConduction = base.doConduction ∧
      a.outletT = base.outletT ∧ a.standbyLosses_kJ = base.standbyLosses_kJ :=
  ⟨rfl, rfl, rfl, rfl, rfl, rfl, rfl⟩

namespace Tank

/-- The tank with other settings for mixing on draws. -/
def relabel (b : Bool) (x : ℚ) (t : Tank n) : Tank n :=
  { t with mixesOnDraw := b, mixBelowFractionOnDraw := x }

theorem mixInversions_relabel (b : Bool) (x : ℚ) (t : Tank n) :
    (t.relabel b x).mixInversions = t.mixInversions.relabel b x := by
  unfold mixInversions
  by_cases h : t.doInversionMixing <;> simp only [relabel, h, if_true, if_false, Bool.false_eq_true]
  all_goals rfl

theorem drawIncrement_relabel (b : Bool) (x : ℚ) (t : Tank n) (s : Inlets) (inc : ℚ) :
    drawIncrement (t.relabel b x) s inc
      = ((drawIncrement t s inc).1, (drawIncrement t s inc).2.relabel b x) := by
  unfold drawIncrement
  simp only
  rw [← mixInversions_relabel]
  rfl

theorem drawLoop_relabel (b : Bool) (x : ℚ) (s : Inlets) (fuel : ℕ) (r e : ℚ) (t : Tank n) :
    drawLoop s fuel r e (t.relabel b x)
      = (drawLoop s fuel r e t).map fun p => (p.1, p.2.relabel b x) := by
  induction fuel generalizing r e t with
  | zero => unfold drawLoop; split_ifs <;> rfl
  | succ fuel ih =>
    rw [drawLoop, drawLoop]
    split_ifs
    · simp only [drawIncrement_relabel]; exact ih _ _ _
    · simp only [drawIncrement_relabel]; exact ih _ _ _
    · rfl

theorem draw_relabel (b : Bool) (x : ℚ) (s : Inlets) (v : ℚ) (t : Tank n) :
    draw (t.relabel b x) s v = ((draw t s v).1, (draw t s v).2.relabel b x) := by
  unfold draw
  simp only [drawLoop_relabel, Option.get_map]

theorem drawWater_relabel (b : Bool) (x : ℚ) (t : Tank n) (v T v2 T2 : ℚ) :
    (t.relabel b x).drawWater v T v2 T2 = (t.drawWater v T v2 T2).relabel b x := by
  unfold drawWater
  have hs : sortInlets (t.relabel b x) v T v2 T2 = sortInlets t v T v2 T2 := rfl
  by_cases h : t.hasHeatExchanger = true
  · have h' : (t.relabel b x).hasHeatExchanger = true := h
    simp only [h, h', if_true]; rfl
  · have h' : ¬ (t.relabel b x).hasHeatExchanger = true := h
    simp only [h, h', hs, draw_relabel]; rfl

/-- The mixing settings are not changed by drawing water. -/
theorem drawWater_mixing (t : Tank n) (v T v2 T2 : ℚ) :
    (t.drawWater v T v2 T2).mixesOnDraw = t.mixesOnDraw ∧
      (t.drawWater v T v2 T2).mixBelowFractionOnDraw = t.mixBelowFractionOnDraw := by
  have h := drawWater_relabel t.mixesOnDraw t.mixBelowFractionOnDraw t v T v2 T2
  have h' : t.relabel t.mixesOnDraw t.mixBelowFractionOnDraw = t := rfl
  rw [h'] at h
  rw [h]
  exact ⟨rfl, rfl⟩

/-- The mixing settings that an exported and imported tank has. -/
def reread (t : Tank n) : Tank n :=
  t.relabel (decide ((if t.mixesOnDraw then t.mixBelowFractionOnDraw else 0) > 0))
    (if t.mixesOnDraw then t.mixBelowFractionOnDraw else 0)

theorem ofRs_toRs (t : Tank n) (i : Info) : t.ofRs (t.toRs i) = t.reread := by
  unfold ofRs toRs reread relabel
  cases hm : t.hasHeatExchanger <;> simp <;> constructor <;> try constructor
  all_goals ring

/-- Bottom mixing does the same with the reread settings. -/
theorem mixBottom_reread (t : Tank n) : t.reread.mixBottom = t.mixBottom.map reread := by
  unfold mixBottom
  by_cases hm : t.mixesOnDraw = true
  · by_cases hf : t.mixBelowFractionOnDraw > 0
    · have h1 : t.reread.mixesOnDraw = true := by simp [reread, relabel, hm, hf]
      have h2 : t.reread.mixedBelowNode = t.mixedBelowNode := by
        simp [mixedBelowNode, reread, relabel, hm, numNodes]
      simp only [h1, hm, if_true, h2]
      have h3 : t.reread.nodeTs = t.nodeTs := rfl
      rw [h3]
      cases mixNodes t.nodeTs 0 t.mixedBelowNode (1 / 3) with
      | ok T => rfl
      | error e => rfl
    · have h1 : t.reread.mixesOnDraw = false := by
        simp [reread, relabel, hm]; exact not_lt.mp hf
      have h2 : t.mixedBelowNode = 0 := by
        unfold mixedBelowNode
        rw [Int.toNat_eq_zero, ← Int.cast_le (R := ℚ)]
        refine le_trans (Int.floor_le _) ?_
        push_cast
        exact mul_nonpos_of_nonneg_of_nonpos (by unfold numNodes; positivity) (not_lt.mp hf)
      simp only [h1, hm, if_true, h2, Bool.false_eq_true, if_false]
      simp [mixNodes, Except.map]
  · have h1 : t.reread.mixesOnDraw = false := by simp [reread, relabel, hm]
    simp only [h1, hm, Bool.false_eq_true, if_false]
    rfl

theorem processDraw_reread (t : Tank n) (v T v2 T2 : ℚ) :
    t.reread.processDraw v T v2 T2 = (t.processDraw v T v2 T2).map reread := by
  unfold processDraw
  split_ifs
  · rfl
  · have h : t.reread.drawWater v T v2 T2 = (t.drawWater v T v2 T2).reread := by
      have hx := drawWater_mixing t v T v2 T2
      unfold reread
      rw [drawWater_relabel, hx.1, hx.2]
    rw [h, mixBottom_reread]
  · rfl

theorem processLosses_reread (t : Tank n) (hours seconds amb : ℚ) :
    t.reread.processLosses hours seconds amb = (t.processLosses hours seconds amb).map reread := by
  unfold processLosses
  have h1 : t.reread.doConduction = t.doConduction := rfl
  have h2 : t.reread.tau seconds = t.tau seconds := rfl
  rw [h1, h2]
  split_ifs
  · rfl
  · unfold mixInversions
    by_cases h : t.doInversionMixing = true
    · have h' : t.reread.doInversionMixing = true := h
      simp only [h, h', if_true, Except.map]; rfl
    · have h' : ¬ t.reread.doInversionMixing = true := h
      simp only [h, h', Except.map]; rfl

theorem updateNodes_reread (t : Tank n) (hours seconds v T amb v2 T2 : ℚ) :
    t.reread.updateNodes hours seconds v T amb v2 T2
      = (t.updateNodes hours seconds v T amb v2 T2).map reread := by
  unfold updateNodes
  rw [processDraw_reread]
  cases t.processDraw v T v2 T2 with
  | ok t1 => exact processLosses_reread t1 hours seconds amb
  | error e => rfl

end Tank

/-- **C43.** A tank that has been exported and read back (over itself) behaves the same: every step
has the same outcome, with the same temperatures, outlet temperature and losses. No condition on the tank. -/
theorem C43_same_behaviour (t : Tank n) (i : Info) (hours seconds v T amb v2 T2 : ℚ) :
    ((t.ofRs (t.toRs i)).updateNodes hours seconds v T amb v2 T2).map tankOutputs
      = (t.updateNodes hours seconds v T amb v2 T2).map tankOutputs := by
  rw [Tank.ofRs_toRs, Tank.updateNodes_reread]
  cases t.updateNodes hours seconds v T amb v2 T2 with
  | ok t1 => rfl
  | error e => rfl

/-- **C43.** … and so does every sequence of steps. -/
theorem C43_same_behaviour_run (t : Tank n) (i : Info)
    (steps : List (ℚ × ℚ × ℚ × ℚ × ℚ × ℚ × ℚ)) :
    let run := fun t0 : Tank n => steps.foldlM (fun t s =>
      t.updateNodes s.1 s.2.1 s.2.2.1 s.2.2.2.1 s.2.2.2.2.1 s.2.2.2.2.2.1 s.2.2.2.2.2.2) t0
    (run (t.ofRs (t.toRs i))).map tankOutputs = (run t).map tankOutputs := by
  intro run
  suffices h : ∀ t0 : Tank n, run t0.reread = (run t0).map Tank.reread by
    rw [Tank.ofRs_toRs, h]
    cases run t with
    | ok t1 => rfl
    | error e => rfl
  simp only [run]
  induction steps with
  | nil => intro t0; rfl
  | cons s ss ih =>
    intro t0
    simp only [List.foldlM_cons]
    rw [Tank.updateNodes_reread]
    cases t0.updateNodes s.1 s.2.1 s.2.2.1 s.2.2.2.1 s.2.2.2.2.1 s.2.2.2.2.2.1 s.2.2.2.2.2.2 with
    | ok t1 => exact ih t1
    | error e => rfl

/-- A mixing fraction of zero or less comes back as no mixing. -/
theorem C43_zero_fraction_switch (t : Tank n) (i : Info) (h : t.mixesOnDraw = true)
    (hf : t.mixBelowFractionOnDraw ≤ 0) : (t.ofRs (t.toRs i)).mixesOnDraw = false := by
  simp [Tank.ofRs, Tank.toRs, h]
  exact hf

def sampleMixing : Tank 3 :=
  { sampleTank with mixesOnDraw := true, mixBelowFractionOnDraw := 1 / 3, UA := 10, hasHeatExchanger := true,
                    heatExchangerEffectiveness := 4 / 5 }

example : SameTankSettings (({ sampleTank with volume_L := 7, mixesOnDraw := false } : Tank 3).ofRs
    (sampleMixing.toRs Info.blank)) sampleMixing :=
  C43_tank_settings _ _ _ (by decide +kernel)

/-! ## Texts -/

/-- **C45 (part).** Manufacturer and model number come back if both are given or neither is (into an
object that has none, as a newly made one). Missing: one of them alone (`C45_single_lost`). -/
theorem C45_product_partial (x old : Info) (h : x.manufacturer.isSome = x.modelNumber.isSome)
    (hold : old.manufacturer = none ∧ old.modelNumber = none) :
    (old.ofRs x.toRs).manufacturer = x.manufacturer ∧ (old.ofRs x.toRs).modelNumber = x.modelNumber := by
  obtain ⟨d, m, p⟩ := x
  cases m <;> cases p <;> simp_all [Info.ofRs, Info.toRs]

/-- **C45 fails.** A manufacturer without a model number, or the reverse, is lost, whatever the object read into
was. -/
theorem C45_single_lost (x old : Info) (h : x.manufacturer.isSome ≠ x.modelNumber.isSome) :
    (old.ofRs x.toRs).manufacturer = old.manufacturer ∧
      (old.ofRs x.toRs).modelNumber = old.modelNumber := by
  obtain ⟨d, m, p⟩ := x
  cases m <;> cases p <;> simp_all [Info.ofRs, Info.toRs]

/-- … in particular nothing comes back in a new object. -/
theorem C45_single_lost_witness :
    (Info.blank.ofRs (Info.toRs ⟨none, some "Acme", none⟩)).manufacturer ≠ some "Acme" := by decide +kernel

/-- **C45.** An object that has product information keeps it when a description without any is read into it. -/
theorem C45_old_information_stays (x old : Info) (h : x.manufacturer = none) :
    (old.ofRs x.toRs).manufacturer = old.manufacturer := by
  simp [Info.ofRs, Info.toRs, h]

/-- **C71.** A description text that is given comes back. -/
theorem C71_description_partial (x old : Info) (d : String) (h : x.description = some d) :
    (old.ofRs x.toRs).description = some d := by
  simp [Info.ofRs, Info.toRs, h]

/-- **C71 fails for an absent text**: it comes back as a standard text, whatever the object read into was. -/
theorem C71_absent_description (x old : Info) (h : x.description = none) :
    (old.ofRs x.toRs).description = some "Representation of embedded HPWH element" := by
  simp [Info.ofRs, Info.toRs, h, Info.defaultText]

/-- **C71.** Ratings come back, each present or absent as it was, into an object that has none. -/
theorem C71_rating (x : Rating) : (Rating.mk none none none none none).ofRs x.toRs = x := by
  obtain ⟨a, b, c, d, e⟩ := x
  cases a <;> cases b <;> cases c <;> cases d <;> cases e <;> rfl

/-- Ratings that are not all absent come back into any object. -/
theorem C71_rating_replaces (x old : Rating) (h : x.isEmpty = false) : old.ofRs x.toRs = x := by
  simp [Rating.ofRs, Rating.toRs, h]

example : (Info.blank.ofRs (Info.toRs ⟨some "tall", some "Acme", some "A1"⟩))
    = ⟨some "tall", some "Acme", some "A1"⟩ := by decide +kernel

end HPWH
