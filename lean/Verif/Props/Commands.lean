import Verif.Model.Commands
import Verif.Spec.Commands
import Verif.Props.Presets
import Verif.Props.Report
import Verif.Props.Cli
import Verif.Props.Elements
import Verif.Props.DayExample
import Verif.Lemmas.Export

/-! # C89: the commands use the model, the test and the files that were named -/

namespace HPWH

open Spec _root_.HPWH.Units

variable {n k : ℕ}

/-! ## Texts -/

theorem toLower_nat (c : Char) : c.toLower.toNat = if 65 ≤ c.toNat ∧ c.toNat ≤ 90 then c.toNat + 32 else c.toNat := by
  unfold Char.toLower
  have e : (c.val ≥ 'A'.val ∧ c.val ≤ 'Z'.val) ↔ (65 ≤ c.toNat ∧ c.toNat ≤ 90) := by
    simp only [ge_iff_le, UInt32.le_iff_toNat_le]; exact Iff.rfl
  by_cases h : 65 ≤ c.toNat ∧ c.toNat ≤ 90
  · rw [dif_pos (e.mpr h), if_pos h]
    show (c.val + ('a'.val - 'A'.val)).toNat = _
    rw [UInt32.toNat_add]
    have : ('a'.val - 'A'.val).toNat = 32 := by decide
    rw [this]
    change (c.toNat + 32) % 2^32 = _
    omega
  · rw [dif_neg (fun x => h (e.mp x)), if_neg h]

theorem toUpper_nat (c : Char) : c.toUpper.toNat = if 97 ≤ c.toNat ∧ c.toNat ≤ 122 then c.toNat - 32 else c.toNat := by
  unfold Char.toUpper
  have e : ('a'.val ≤ c.val ∧ c.val ≤ 'z'.val) ↔ (97 ≤ c.toNat ∧ c.toNat ≤ 122) := by
    simp only [UInt32.le_iff_toNat_le]; exact Iff.rfl
  by_cases h : 97 ≤ c.toNat ∧ c.toNat ≤ 122
  · rw [dif_pos (e.mpr h), if_pos h]
    show (c.val + ('A'.val - 'a'.val)).toNat = _
    rw [UInt32.toNat_add]
    have : ('A'.val - 'a'.val).toNat = 4294967264 := by decide
    rw [this]
    change (c.toNat + 4294967264) % 2^32 = _
    omega
  · rw [dif_neg (fun x => h (e.mp x)), if_neg h]

theorem char_eq_iff (c d : Char) : c = d ↔ c.toNat = d.toNat := ⟨fun h => h ▸ rfl, fun h => by
  apply Char.ext; exact UInt32.toNat_inj.mp h⟩

theorem toLower_blank (c : Char) : c.toLower = ' ' ↔ c = ' ' := by
  rw [char_eq_iff, char_eq_iff, toLower_nat]
  have : ' '.toNat = 32 := by decide
  rw [this]
  split <;> omega

theorem toUpper_E (c : Char) : c.toUpper = 'E' ↔ c = 'E' ∨ c = 'e' := by
  rw [char_eq_iff, char_eq_iff, char_eq_iff, toUpper_nat]
  have h1 : 'E'.toNat = 69 := by decide
  have h2 : 'e'.toNat = 101 := by decide
  rw [h1, h2]
  split <;> omega
theorem toUpper_digit (c d : Char) (h : d.toNat < 65) : c.toUpper = d ↔ c = d := by
  rw [char_eq_iff, char_eq_iff, toUpper_nat]
  split <;> omega

theorem tidy_cons (c : Char) (a : List Char) : tidy (c :: a) = if c = ' ' then tidy a else c.toLower :: tidy a := by
  unfold tidy
  by_cases h : c = ' '
  · subst h
    simp
  · have : c.toLower ≠ ' ' := fun e => h ((toLower_blank c).mp e)
    simp [h, this]

theorem sameWords_iff (a b : List Char) : tidy a = tidy b ↔ SameWords a b := by
  constructor
  · intro h
    induction a generalizing b with
    | nil =>
      induction b with
      | nil => exact .nil
      | cons d b ih =>
        rw [tidy_cons] at h
        split at h
        · next e => rw [e]; exact .right (ih h)
        · cases h
    | cons c a ih =>
      rw [tidy_cons] at h
      split at h
      · next e => rw [e]; exact .left (ih b h)
      · next e =>
        induction b with
        | nil => cases h
        | cons d b ihb =>
          rw [tidy_cons] at h
          split at h
          · next e' => rw [e']; exact .right (ihb h)
          · injection h with h1 h2
            exact .char h1 (ih b h2)
  · intro h
    induction h with
    | nil => rfl
    | left _ ih => rw [tidy_cons, if_pos rfl, ih]
    | right _ ih => rw [tidy_cons, if_pos rfl, ih]
    | @char c d a b h _ ih =>
      rw [tidy_cons, tidy_cons, ih, h]
      by_cases hc : c = ' '
      · have : d = ' ' := by
          rw [← toLower_blank, ← h, toLower_blank]; exact hc
        rw [if_pos hc, if_pos this]
      · have : d ≠ ' ' := fun e => hc (by rw [← toLower_blank, h, toLower_blank]; exact e)
        rw [if_neg hc, if_neg this]

theorem fileName_append {dir y : List Char} (hd : dir = [] ∨ ∃ d, dir = d ++ ['/']) (hy : '/' ∉ y) :
    fileName (dir ++ y) = y := by
  unfold fileName
  rw [List.reverse_append, List.takeWhile_append_of_pos]
  · have : dir.reverse.takeWhile (· ≠ '/') = [] := by
      rcases hd with rfl | ⟨d, rfl⟩
      · rfl
      · simp
    rw [this, List.append_nil, List.reverse_reverse]
  · intro c hc
    have : c ≠ '/' := fun e => hy (e ▸ List.mem_reverse.mp hc)
    simpa using this

theorem beforeLast_append {c : Char} {x e : List Char} (he : c ∉ e) : beforeLast c (x ++ c :: e) = x := by
  unfold beforeLast
  rw [if_pos (by simp), List.reverse_append, List.reverse_cons, List.append_assoc, List.dropWhile_append_of_pos]
  · simp
  · intro d hd
    have : d ≠ c := fun h => he (h ▸ List.mem_reverse.mp hd)
    simpa using this

theorem beforeLast_none {c : Char} {x : List Char} (h : c ∉ x) : beforeLast c x = x := if_neg h

/-- The stem of a path is the name of its file. -/
theorem stem_of {path x : List Char} (h : IsStem path x) : stem path = x := by
  obtain ⟨dir, ext, rfl, hd, hx, hx1, hs, he⟩ := h
  unfold stem
  simp only
  rcases he with ⟨rfl, hdot⟩ | ⟨e, rfl, hdot, hs'⟩
  · rw [List.append_nil, fileName_append hd hs, beforeLast_none hdot]
    exact ite_self _
  · have hf : fileName (dir ++ (x ++ '.' :: e)) = x ++ '.' :: e :=
      fileName_append hd (by simp [hs, hs'])
    rw [hf, beforeLast_append hdot, if_neg]
    rintro (h | h)
    · cases x with
      | nil => exact hx rfl
      | cons c x =>
        simp only [List.cons_append, List.cons.injEq] at h
        cases x with
        | nil => exact hx1 (by rw [h.1])
        | cons d x => simp at h
    · exact hx h

/-! ## Files -/

/-- **C89.** A description read from a file in a directory is loaded under the name of the file. -/
theorem C89_file_name_partial (path x : List Char) (h : IsStem path x) (hdir : '/' ∈ path) :
    modelNameFromFilepath path = x := by
  obtain ⟨dir, ext, rfl, hd, hx, hx1, hs, he⟩ := h
  unfold modelNameFromFilepath
  rw [if_pos hdir]
  rcases he with ⟨rfl, hdot⟩ | ⟨e, rfl, hdot, hs'⟩
  · rw [List.append_nil, fileName_append hd hs, beforeLast_none hdot]
  · rw [fileName_append hd (by simp [hs, hs']), beforeLast_append hdot]

/-- **C89 fails without a directory**: a description read from a file of the working directory is loaded under the name
`custom`, whatever the file is called. -/
theorem C89_no_directory (path : List Char) (h : '/' ∉ path) : modelNameFromFilepath path = "custom".toList := by
  unfold modelNameFromFilepath
  rw [if_neg h]
  decide +kernel

example : IsStem "models_json/Sanco83.json".toList "Sanco83".toList :=
  ⟨"models_json/".toList, ".json".toList, by decide +kernel, Or.inr ⟨"models_json".toList, by decide +kernel⟩,
    by decide +kernel, by decide +kernel, by decide +kernel, Or.inr ⟨"json".toList, by decide +kernel⟩⟩

/-- **C89.** The results are written to the file of the name given, without directory and extension, in the directory
given. -/
theorem C89_results_file (dir name x : List Char) (hd : dir ≠ []) (h : IsStem name x) :
    resultsPath dir name = some (dir ++ '/' :: (x ++ ".json".toList)) := by
  have hn : name ≠ [] := by
    obtain ⟨d, e, rfl, _, hx, _⟩ := h
    simp [hx]
  unfold resultsPath
  rw [if_pos ⟨hd, hn⟩, stem_of h]
  simp

/-- **C89.** Without a directory or without a name, no file of results is written. -/
theorem C89_no_results_file (dir name : List Char) : resultsPath dir name = none ↔ dir = [] ∨ name = [] := by
  unfold resultsPath
  split_ifs with h
  · simp [h.1, h.2]
  · simp only [true_iff]
    by_contra hc
    exact h ⟨fun e => hc (.inl e), fun e => hc (.inr e)⟩

example : resultsPath ".".toList "out/mine.json".toList = some "./mine.json".toList := by decide +kernel

/-- **C89 (part).** `convert` writes to the file named, or one named after model and kind of specification, with `.json`
added unless it is there already. Missing: names shorter than five characters (`C89_short_name`). -/
theorem C89_converted_file_partial (dir given model spec : List Char) (name : List Char)
    (hname : name = if given = [] then model ++ '_' :: spec else given) (hlen : 5 ≤ name.length) :
    ∃ x, convertPath dir given model spec = .ok (if dir = [] then x else dir ++ '/' :: x) ∧
      ".json".toList <:+ x ∧ ((∃ y, name = y ++ ".json".toList) → x = name) ∧
      (¬(∃ y, name = y ++ ".json".toList) → x = name ++ ".json".toList) := by
  have key : (∃ y, name = y ++ ".json".toList) ↔ name.drop (name.length - 5) = ".json".toList := by
    constructor
    · rintro ⟨y, rfl⟩
      have : (".json".toList).length = 5 := by decide +kernel
      rw [List.length_append, this, Nat.add_sub_cancel, List.drop_left]
    · intro h
      exact ⟨name.take (name.length - 5), by rw [← h, List.take_append_drop]⟩
  unfold convertPath
  simp only
  rw [← hname, if_neg (by omega)]
  by_cases h : name.drop (name.length - 5) = ".json".toList
  · refine ⟨name, ?_, ?_, fun _ => rfl, fun h' => absurd (key.mpr h) h'⟩
    · rw [if_neg (not_not.mpr h), ite_not]
    · obtain ⟨y, e⟩ := key.mpr h
      exact ⟨y, e.symm⟩
  · refine ⟨name ++ ".json".toList, ?_, ⟨name, rfl⟩, fun h' => absurd (key.mp h') h, fun _ => rfl⟩
    rw [if_pos h, ite_not]

/-- **C89 fails for short names**: `convert` with a file name of less than five characters ends with an exception. -/
theorem C89_short_name (dir given model spec : List Char) (h0 : given ≠ []) (h : given.length < 5) :
    convertPath dir given model spec = .error .error := by
  unfold convertPath
  simp only
  rw [if_neg h0, if_pos h]

example : convertPath ".".toList [] "Sanco83".toList "JSON".toList = .ok "./Sanco83_JSON.json".toList := by decide +kernel
example : convertPath ".".toList "out".toList "Sanco83".toList "JSON".toList = .error .error := by decide +kernel

/-! ## Which model -/

/-- The names of the built-in models have neither directory nor extension. -/
theorem names_plain : ∀ q ∈ Presets.models, stem q.1.toList = q.1.toList := by decide +kernel

theorem names_given : ∀ q ∈ Presets.models, q.1.toList ≠ [] := by decide +kernel

/-- **C89.** A built-in model named to a command is the one loaded, from either source of models. -/
theorem C89_named_model (usesStem : Bool) (q : String × ℤ) (hq : q ∈ Presets.models) (number : ℤ) (path : List Char) :
    chooseModel usesStem "Preset".toList q.1.toList number path = .presetName q.1.toList ∧
    chooseModel usesStem "Legacy".toList q.1.toList number path = .legacyName q.1.toList ∧
    chooseModel usesStem "JSON".toList q.1.toList number path =
      .file ("./models_json/".toList ++ q.1.toList ++ ".json".toList) q.1.toList := by
  have h1 : (if usesStem then stem q.1.toList else q.1.toList) = q.1.toList := by
    rw [names_plain q hq]; exact ite_self _
  have h2 : q.1.toList ≠ [] := names_given q hq
  have e1 : "Preset".toList ≠ "JSON".toList := by decide +kernel
  have e2 : "Preset".toList ≠ "Legacy".toList := by decide +kernel
  have e3 : "JSON".toList ≠ "Legacy".toList := by decide +kernel
  unfold chooseModel
  simp only [h1]
  refine ⟨?_, ?_, ?_⟩
  · rw [if_pos trivial, if_pos h2]
  · rw [if_neg e2.symm, if_neg e3.symm, if_pos trivial, if_pos h2]
  · rw [if_neg e1.symm, if_pos trivial, if_pos h2]

/-- **C89.** A number is used if no name is given, and a file if neither is. -/
theorem C89_number_or_file (usesStem : Bool) (number : ℤ) (path : List Char) :
    (number ≠ -1 → chooseModel usesStem "Preset".toList [] number path = .presetNumber number) ∧
    (number ≠ -1 → chooseModel usesStem "Legacy".toList [] number path = .legacyNumber number) ∧
    (path ≠ [] → chooseModel usesStem "JSON".toList [] number path = .file path (modelNameFromFilepath path)) := by
  have h1 : (if usesStem then stem [] else []) = ([] : List Char) := by
    have : stem [] = [] := by decide +kernel
    rw [this]; exact ite_self _
  have e1 : "Preset".toList ≠ "JSON".toList := by decide +kernel
  have e2 : "Preset".toList ≠ "Legacy".toList := by decide +kernel
  have e3 : "JSON".toList ≠ "Legacy".toList := by decide +kernel
  unfold chooseModel
  simp only [h1]
  refine ⟨fun h => ?_, fun h => ?_, fun h => ?_⟩
  · rw [if_pos trivial, if_neg (by simp), if_pos h]
  · rw [if_neg e2.symm, if_neg e3.symm, if_pos trivial, if_neg (by simp), if_pos h]
  · rw [if_neg e1.symm, if_pos trivial, if_neg (by simp), if_pos h]

/-- **C89 fails for other words**: with a kind of specification that is not written exactly as the three known ones, or
with a file for a kind that has none, the command goes on with a simulator that was never given a model. -/
theorem C89_nothing_loaded (usesStem : Bool) (spec name : List Char) (number : ℤ) (path : List Char) :
    (spec ≠ "Preset".toList → spec ≠ "JSON".toList → spec ≠ "Legacy".toList →
      chooseModel usesStem spec name number path = .nothing) ∧
    chooseModel usesStem "Preset".toList [] (-1) path = .nothing ∧
    chooseModel usesStem "Legacy".toList [] (-1) path = .nothing := by
  have h1 : (if usesStem then stem [] else []) = ([] : List Char) := by
    have : stem [] = [] := by decide +kernel
    rw [this]; exact ite_self _
  have e2 : "Preset".toList ≠ "Legacy".toList := by decide +kernel
  have e3 : "JSON".toList ≠ "Legacy".toList := by decide +kernel
  unfold chooseModel
  refine ⟨fun a b c => ?_, ?_, ?_⟩
  · simp only [if_neg a, if_neg b, if_neg c]
  · simp only [h1]; simp
  · simp only [h1, if_neg e2.symm, if_neg e3.symm]; simp

example : chooseModel false "preset".toList "Sanco83".toList 3 [] = .nothing := by decide +kernel
example : chooseModel true "Legacy".toList "x/Sanco83.json".toList (-1) [] = .legacyName "Sanco83".toList := by
  decide +kernel

/-! ## Draw profile and conditions -/

theorem label_same (d : Designation) (x : List Char) :
    SameWords (Designation.label d) x ↔ SameWords (ProfileName d).toList x := by
  rw [← sameWords_iff, ← sameWords_iff]
  have : tidy d.label = tidy (ProfileName d).toList := by cases d <;> decide +kernel
  rw [this]

theorem profile_unique (x : List Char) (d e : Designation) (hd : tidy d.label = tidy x) (he : tidy e.label = tidy x) :
    d = e := by
  have : tidy d.label = tidy e.label := hd.trans he.symm
  revert this
  cases d <;> cases e <;> decide +kernel

/-- **C89.** A draw profile is found exactly if the text is its name, but for capital letters and blanks; in whatever
order the names are compared. -/
theorem C89_profile (order : List Designation) (hall : ∀ d, d ∈ order) (x : List Char) (d : Designation) :
    profileNamed order x = some d ↔ SameWords (ProfileName d).toList x := by
  rw [← label_same, ← sameWords_iff]
  unfold profileNamed
  constructor
  · intro h
    have := List.find?_some h
    simpa using this
  · intro h
    cases e : order.find? fun d => decide (tidy d.label = tidy x) with
    | none =>
      rw [List.find?_eq_none] at e
      exact absurd (by simpa using h) (e d (hall d))
    | some d' =>
      have h' : tidy d'.label = tidy x := by simpa using List.find?_some e
      rw [profile_unique x d d' h h']

example : profileNamed [.high, .low, .verySmall, .medium] " VERYsmall".toList = some .verySmall := by decide +kernel

theorem toUpper_of_toLower {c d : Char} (h : c.toLower = d.toLower) : c.toUpper = d.toUpper := by
  rw [char_eq_iff, toLower_nat, toLower_nat] at h
  rw [char_eq_iff, toUpper_nat, toUpper_nat]
  split at h <;> split at h <;> split <;> split <;> omega

/-- **C89.** The conditions of the test are those named, in capital letters or not. -/
theorem C89_conditions (x : String) (ambient inlet air : ℚ) (h : Conditions x ambient inlet air) (y : List Char)
    (hy : List.Forall₂ (fun c d => c.toLower = d.toLower) x.toList y) :
    conditionsNamed y = ⟨F_TO_C ambient, F_TO_C inlet, F_TO_C air⟩ := by
  have e : y.map Char.toUpper = x.toList.map Char.toUpper := by
    generalize x.toList = z at hy
    induction hy with
    | nil => rfl
    | cons h _ ih => rw [List.map_cons, List.map_cons, ih, toUpper_of_toLower h]
  unfold conditionsNamed
  simp only [e]
  cases h
  · rw [if_pos (by decide +kernel)]; rfl
  · rw [if_neg (by decide +kernel), if_neg (by decide +kernel)]; rfl
  · rw [if_neg (by decide +kernel), if_pos (by decide +kernel)]; rfl

example : List.Forall₂ (fun c d => c.toLower = d.toLower) "E95".toList "e95".toList := by decide +kernel

/-- **C89 fails for other conditions**: any other text gives the test of the uniform energy factor, without a message. -/
theorem C89_unknown_conditions (y : List Char) (h1 : y ≠ "E50".toList) (h2 : y ≠ "e50".toList)
    (h3 : y ≠ "E95".toList) (h4 : y ≠ "e95".toList) : conditionsNamed y = testConditionsUEF := by
  have a : ∀ c₁ c₂ : Char, c₁.toNat < 65 → c₂.toNat < 65 → y.map Char.toUpper = ['E', c₁, c₂] →
      y = ['E', c₁, c₂] ∨ y = ['e', c₁, c₂] := by
    intro c₁ c₂ l1 l2 h
    obtain ⟨p, y1, rfl, hp, h⟩ := List.map_eq_cons_iff.mp h
    obtain ⟨q, y2, rfl, hq, h⟩ := List.map_eq_cons_iff.mp h
    obtain ⟨r, y3, rfl, hr, h⟩ := List.map_eq_cons_iff.mp h
    rw [List.map_eq_nil_iff] at h
    subst h
    rw [(toUpper_digit q c₁ l1).mp hq, (toUpper_digit r c₂ l2).mp hr]
    rcases (toUpper_E p).mp hp with rfl | rfl
    · exact Or.inl rfl
    · exact Or.inr rfl
  unfold conditionsNamed
  simp only
  rw [if_neg, if_neg]
  · intro h
    rcases a '9' '5' (by decide) (by decide) h with h | h
    · exact h3 h
    · exact h4 h
  · intro h
    rcases a '5' '0' (by decide) (by decide) h with h | h
    · exact h1 h
    · exact h2 h

example : (conditionsNamed "E67".toList).inletT = F_TO_C 58 := by decide +kernel

/-! ## measure -/

/-- **C89.** What `measure` reports: with a profile named, the 24-hour test of the model as loaded with that profile;
otherwise the first-hour rating and then the test with the profile the rating gives. Both under the conditions named. The
results and the table of all minutes go to the files named. -/
theorem C89_measure (m : Libm) (fuel limit : ℕ) (order : List Designation) (hall : ∀ d, d ∈ order) (shown : Sim.Shown)
    (name : List Char) (a : MeasureArgs) (s : Sim n k) (r : Measured n k)
    (h : measure m fuel limit order shown name a s = .ok r) :
    ((a.drawProfileName ≠ [] ∧ r.rating = none ∧ ∃ d, SameWords (ProfileName d).toList a.drawProfileName ∧
        Sim.run24hrTest m fuel limit (conditionsNamed a.testConfig) d s = .ok (r.sim, r.summary)) ∨
      (a.drawProfileName = [] ∧ ∃ s1 volume d, Sim.findFirstHourRating m fuel limit s = .ok (s1, volume, d) ∧
        r.rating = some (volume, d) ∧
        Sim.run24hrTest m fuel limit (conditionsNamed a.testConfig) d s1 = .ok (r.sim, r.summary))) ∧
    r.results = resultsPath a.outputDir a.resultsFilename ∧
    (a.saveTestData = false → r.data = none) ∧
    (a.saveTestData = true → ∃ heading rows, r.data = some
        ((if a.outputDir = [] then [] else a.outputDir ++ ['/']) ++ "test24hrEF_".toList ++ name ++ ".csv".toList,
          heading :: rows) ∧
      r.sim.testHeading false = .ok heading ∧
      List.Forall₂ (fun record row => r.sim.testRow shown record false = .ok row) r.summary.records rows) := by
  unfold measure at h
  obtain ⟨p, hp, h⟩ := (bind_ok_iff _ _ _).mp h
  obtain ⟨t, ht, h⟩ := (bind_ok_iff _ _ _).mp h
  obtain ⟨q, hq, h⟩ := (bind_ok_iff _ _ _).mp h
  simp only [pure, Except.pure, Except.ok.injEq] at h
  subst h
  refine ⟨?_, rfl, ?_, ?_⟩
  · unfold findProfile at hp
    by_cases hx : a.drawProfileName = []
    · right
      rw [if_neg (not_not.mpr hx)] at hp
      obtain ⟨f, hf, hp⟩ := (bind_ok_iff _ _ _).mp hp
      simp only [pure, Except.pure, Except.ok.injEq] at hp
      subst hp
      exact ⟨hx, f.1, f.2.1, f.2.2, hf, rfl, ht⟩
    · left
      rw [if_pos hx] at hp
      cases e : profileNamed order a.drawProfileName with
      | none => rw [e] at hp; cases hp
      | some d =>
        rw [e] at hp
        obtain rfl := Except.ok.inj hp
        exact ⟨hx, rfl, d, (C89_profile order hall _ d).mp e, ht⟩
  · intro hs
    rw [hs] at hq
    simpa using hq.symm
  · intro hs
    rw [if_pos hs] at hq
    obtain ⟨hd, hh, hq⟩ := (bind_ok_iff _ _ _).mp hq
    obtain ⟨rows, hr, hq⟩ := (bind_ok_iff _ _ _).mp hq
    simp only [pure, Except.pure, Except.ok.injEq] at hq
    refine ⟨hd, rows, hq.symm.trans ?_, hh, mapM_forall₂ hr⟩
    have e : dataPath a.outputDir name =
        (if a.outputDir = [] then [] else a.outputDir ++ ['/']) ++ "test24hrEF_".toList ++ name ++ ".csv".toList := by
      unfold dataPath
      by_cases h0 : a.outputDir = []
      · rw [if_neg (not_not.mpr h0), if_pos h0]; simp
      · rw [if_pos h0, if_neg h0]; simp
    rw [e]

/-- With a profile named and no table wanted, the command succeeds if the test does. -/
theorem measure_named (m : Libm) (fuel limit : ℕ) (order : List Designation) (shown : Sim.Shown) (name : List Char)
    (a : MeasureArgs) (s s' : Sim n k) (d : Designation) (t : Sim.TestSummary k) (hx : a.drawProfileName ≠ [])
    (hd : profileNamed order a.drawProfileName = some d) (hs : a.saveTestData = false)
    (h : Sim.run24hrTest m fuel limit (conditionsNamed a.testConfig) d s = .ok (s', t)) :
    measure m fuel limit order shown name a s =
      .ok ⟨s', none, t, resultsPath a.outputDir a.resultsFilename, none⟩ := by
  have hp : findProfile m fuel limit order a.drawProfileName s = .ok (s, d, none) := by
    unfold findProfile
    rw [if_pos hx, hd]
  unfold measure
  simp only [hp, bind, Except.bind, pure, Except.pure, h, hs]
  rfl

/-- The command measures the water heater of `daySim` with a profile named in its own way. -/
example : ∃ r, measure sampleLibm 5 100 [.high, .verySmall, .low, .medium] ⟨0, none⟩ "day".toList
    ⟨".".toList, false, "day.txt".toList, "very SMALL".toList, "uef".toList⟩ daySim = .ok r ∧ 0 < r.summary.EF ∧
    r.results = some "./day.json".toList := by
  obtain ⟨s', t, h, hp⟩ := daySim_returns
  have hr : resultsPath ".".toList "day.txt".toList = some "./day.json".toList := by decide +kernel
  refine ⟨_, measure_named _ _ _ _ _ _ _ _ s' .verySmall t (by decide +kernel) (by decide +kernel) rfl ?_, hp, hr⟩
  rw [C89_unknown_conditions _ (by decide +kernel) (by decide +kernel) (by decide +kernel) (by decide +kernel)]
  exact h

/-- **C89.** A text that names no draw profile is rejected. -/
theorem C89_unknown_profile (m : Libm) (fuel limit : ℕ) (order : List Designation) (hall : ∀ d, d ∈ order)
    (shown : Sim.Shown) (name : List Char) (a : MeasureArgs) (s : Sim n k) (h0 : a.drawProfileName ≠ [])
    (h : ∀ d, ¬SameWords (ProfileName d).toList a.drawProfileName) :
    measure m fuel limit order shown name a s = .error .error := by
  have : profileNamed order a.drawProfileName = none := by
    cases e : profileNamed order a.drawProfileName with
    | none => rfl
    | some d => exact absurd ((C89_profile order hall _ d).mp e) (h d)
  unfold measure findProfile
  rw [if_pos h0, this]
  rfl

/-! ### Tests leave the settings alone -/

theorem testStep_cfg {m : Libm} {fuel : ℕ} {c : TestConditions} {dr : DR} {s s' : Sim n k} {v : ℚ}
    (h : Sim.testStep m fuel c dr s v = .ok s') : s'.cfg = s.cfg := (runOneStep_settings rfl h).1

theorem applyTestSetpoint_cfg {s s' : Sim n k} (h : s.applyTestSetpoint = .ok s') : s'.cfg = s.cfg := by
  unfold Sim.applyTestSetpoint at h
  split at h
  · rw [setSetpoint_ok h]
  · split at h
    · rw [setSetpoint_ok h]
    · rw [Except.ok.inj h]

theorem prepLoop_cfg {m : Libm} {fuel : ℕ} {c : TestConditions} {flow : ℚ} :
    ∀ (limit : ℕ) (s s' : Sim n k) (p : Sim.PrepPhase) (d : Bool),
      Sim.prepLoop m fuel c flow limit s p d = .ok s' → s'.cfg = s.cfg
  | 0, _, _, _, _, h => by cases h
  | limit + 1, s, s', p, d, h => by
    unfold Sim.prepLoop at h
    obtain ⟨s1, h1, h⟩ := (bind_ok_iff _ _ _).mp h
    rw [← testStep_cfg h1]
    split at h
    · rw [Except.ok.inj h]
    · exact prepLoop_cfg limit s1 s' _ _ h

theorem ratingLoop_cfg {m : Libm} {fuel : ℕ} {c : TestConditions} {flow : ℚ} :
    ∀ (limit : ℕ) (s : Sim n k) (r : Sim.RatingState) (q : Sim n k × ℚ),
      Sim.ratingLoop m fuel c flow limit s r = .ok q → q.1.cfg = s.cfg
  | 0, _, _, _, h => by cases h
  | limit + 1, s, r, q, h => by
    unfold Sim.ratingLoop at h
    obtain ⟨s1, h1, h⟩ := (bind_ok_iff _ _ _).mp h
    obtain ⟨x, h2, h⟩ := (bind_ok_iff _ _ _).mp h
    rw [← testStep_cfg h1]
    cases x with
    | inl y => rw [← Except.ok.inj h]
    | inr y => exact ratingLoop_cfg limit s1 _ q h

theorem findFirstHourRating_cfg {m : Libm} {fuel limit : ℕ} {s : Sim n k} {q : Sim n k × ℚ × Designation}
    (h : Sim.findFirstHourRating m fuel limit s = .ok q) : q.1.cfg = s.cfg := by
  unfold Sim.findFirstHourRating at h
  obtain ⟨s1, h1, h⟩ := (bind_ok_iff _ _ _).mp h
  obtain ⟨s2, h2, h⟩ := (bind_ok_iff _ _ _).mp h
  obtain ⟨r, h3, h⟩ := (bind_ok_iff _ _ _).mp h
  simp only [pure, Except.pure, Except.ok.injEq] at h
  rw [← h]
  exact (ratingLoop_cfg _ _ _ _ h3).trans ((prepLoop_cfg _ _ _ _ _ h2).trans (applyTestSetpoint_cfg h1))

theorem idleLoop_cfg {m : Libm} {fuel : ℕ} {c : TestConditions} :
    ∀ (limit : ℕ) (pre : ℕ) (on : Bool) (s : Sim n k) (l : List (Sim.TestRecord k)) (q),
      Sim.idleLoop m fuel c limit pre on s l = .ok q → q.1.cfg = s.cfg
  | 0, _, _, _, _, _, h => by cases h
  | limit + 1, pre, on, s, l, q, h => by
    unfold Sim.idleLoop at h
    split at h
    · obtain ⟨s1, h1, h⟩ := (bind_ok_iff _ _ _).mp h
      rw [← testStep_cfg h1]
      exact idleLoop_cfg limit _ _ s1 _ q h
    · rw [← Except.ok.inj h]

theorem dayLoop_cfg {m : Libm} {fuel : ℕ} {c : TestConditions} {T : ℚ} :
    ∀ (count t : ℕ) (d d' : Sim.Day n k), Sim.Day.loop m fuel c T t count d = .ok d' → d'.sim.cfg = d.sim.cfg
  | 0, t, d, d', h => by
    unfold Sim.Day.loop at h
    rw [Except.ok.inj h]
  | count + 1, t, d, d', h => by
    unfold Sim.Day.loop at h
    obtain ⟨d1, h1, h⟩ := (bind_ok_iff _ _ _).mp h
    rw [dayLoop_cfg count (t + 1) d1 d' h]
    unfold Sim.Day.minute at h1
    obtain ⟨s1, h2, h1⟩ := (bind_ok_iff _ _ _).mp h1
    rw [← Except.ok.inj h1]
    exact testStep_cfg h2

theorem run24hrTest_cfg {m : Libm} {fuel limit : ℕ} {c : TestConditions} {d : Designation} {s : Sim n k}
    {q : Sim n k × Sim.TestSummary k} (h : Sim.run24hrTest m fuel limit c d s = .ok q) : q.1.cfg = s.cfg := by
  unfold Sim.run24hrTest at h
  obtain ⟨s1, h1, h⟩ := (bind_ok_iff _ _ _).mp h
  obtain ⟨s2, h2, h⟩ := (bind_ok_iff _ _ _).mp h
  obtain ⟨r, h3, h⟩ := (bind_ok_iff _ _ _).mp h
  obtain ⟨day, h4, h⟩ := (bind_ok_iff _ _ _).mp h
  obtain ⟨sum, h5, h⟩ := (bind_ok_iff _ _ _).mp h
  simp only [pure, Except.pure, Except.ok.injEq] at h
  rw [← h]
  exact (dayLoop_cfg _ _ _ _ h4).trans ((idleLoop_cfg _ _ _ _ _ _ h3).trans
    ((prepLoop_cfg _ _ _ _ _ h2).trans (applyTestSetpoint_cfg h1)))

/-- **C89 fails for heaters without a heat pump**: the test is run, but the table of its data, which the command cannot be
told to leave out, cannot be written. -/
theorem C89_no_compressor (m : Libm) (fuel limit : ℕ) (order : List Designation) (shown : Sim.Shown) (name : List Char)
    (a : MeasureArgs) (s : Sim n k) (hs : a.saveTestData = true)
    (hc : s.cfg.compressorIndex = none) (r : Measured n k) : measure m fuel limit order shown name a s ≠ .ok r := by
  intro h
  unfold measure at h
  obtain ⟨p, hp, h⟩ := (bind_ok_iff _ _ _).mp h
  obtain ⟨t, ht, h⟩ := (bind_ok_iff _ _ _).mp h
  obtain ⟨q, hq, h⟩ := (bind_ok_iff _ _ _).mp h
  rw [if_pos hs] at hq
  obtain ⟨hd, hh, hq⟩ := (bind_ok_iff _ _ _).mp hq
  have h1 : p.1.cfg = s.cfg := by
    unfold findProfile at hp
    split at hp
    · split at hp
      · rw [← Except.ok.inj hp]
      · cases hp
    · obtain ⟨f, hf, hp⟩ := (bind_ok_iff _ _ _).mp hp
      simp only [pure, Except.pure, Except.ok.injEq] at hp
      rw [← hp]
      exact findFirstHourRating_cfg hf
  have h2 : t.1.cfg.compressorIndex = none := by rw [run24hrTest_cfg ht, h1, hc]
  have h3 : t.1.isCompressorExternalMultipass = .error .error := by
    simp [Sim.isCompressorExternalMultipass, Sim.compressor, h2, bind, Except.bind]
  unfold Sim.testHeading at hh
  rw [h3] at hh
  cases hh

end HPWH
