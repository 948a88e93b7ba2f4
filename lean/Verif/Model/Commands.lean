import Verif.Model.Rating
import Verif.Model.Report
import Verif.Model.PresetNames
import Verif.Model.Import

/-! # The commands `measure` and `convert`, and how commands choose their model

src/hpwh/measure.cpp, make.cpp, convert.cpp and the parts of run.cpp that are the same. Texts are lists of characters.
Reading the options (CLI11), opening files and the JSON text of the results are not modelled. -/

namespace HPWH

open Sim (Shown Line TestSummary)

/-! ## Texts -/

/-- `std::filesystem::path(x).filename()` for a text of the usual form: what follows the last `/`. -/
def fileName (x : List Char) : List Char := (x.reverse.takeWhile (· ≠ '/')).reverse

/-- Removal of what follows the last occurrence of `c`, and of that occurrence; the whole text if there is none. -/
def beforeLast (c : Char) (x : List Char) : List Char :=
  if c ∈ x then ((x.reverse.dropWhile (· ≠ c)).drop 1).reverse else x

/-- `std::filesystem::path(x).stem()`: the file name without its extension; a name whose only dot comes first, and `..`,
have none. -/
def stem (x : List Char) : List Char :=
  let f := fileName x
  let s := beforeLast '.' f
  if f = ['.', '.'] ∨ s = [] then f else s

/-- `getModelNameFromFilepath`, src/HPWH.hh:1667-1681. -/
def modelNameFromFilepath (path : List Char) : List Char :=
  beforeLast '.' (if '/' ∈ path then fileName path else "custom".toList)

/-- Lower case and no blanks, src/hpwh/measure.cpp:111-131. -/
def tidy (x : List Char) : List Char := (x.map Char.toLower).filter (· ≠ ' ')

/-! ## Which model -/

/-- What a command does with the new simulator before it starts. -/
inductive Loading
  | presetName (name : List Char)
  | presetNumber (id : ℤ)
  | file (path name : List Char)
  | legacyName (name : List Char)
  | legacyNumber (id : ℤ)
  | nothing
  deriving DecidableEq

/-- The callback of a command, src/hpwh/measure.cpp:57-90, the same in make.cpp:67-100 and, after the model's name is
replaced by its stem (`usesStem`), in run.cpp:67-101 and convert.cpp:47-81. −1 stands for no number. -/
def chooseModel (usesStem : Bool) (spec name : List Char) (number : ℤ) (path : List Char) : Loading :=
  let name := if usesStem then stem name else name
  if spec = "Preset".toList then
    if name ≠ [] then .presetName name else if number ≠ -1 then .presetNumber number else .nothing
  else if spec = "JSON".toList then
    if name ≠ [] then .file ("./models_json/".toList ++ name ++ ".json".toList) name
    else if path ≠ [] then .file path (modelNameFromFilepath path) else .file path name
  else if spec = "Legacy".toList then
    if name ≠ [] then .legacyName name else if number ≠ -1 then .legacyNumber number else .nothing
  else .nothing

/-! ## Draw profile and conditions -/

/-- `FirstHourRating::DesignationMap`, src/HPWH.hh:1106-1110. -/
def Designation.label : Designation → List Char
  | .verySmall => "Very Small".toList
  | .low => "Low".toList
  | .medium => "Medium".toList
  | .high => "High".toList

/-- The loop over the names of the draw profiles, src/hpwh/measure.cpp:122-141. `order` is the order in which the
unordered map is traversed. -/
def profileNamed (order : List Designation) (x : List Char) : Option Designation :=
  order.find? fun d => tidy d.label = tidy x

/-- `HPWH::testConfiguration_E50`, src/HPWH.cc:77. -/
def testConditionsE50 : TestConditions := ⟨Units.F_TO_C 50, Units.F_TO_C 50, Units.F_TO_C 50⟩

/-- `HPWH::testConfiguration_E95`, src/HPWH.cc:79. -/
def testConditionsE95 : TestConditions := ⟨Units.F_TO_C 95, Units.F_TO_C 67, Units.F_TO_C 95⟩

/-- The choice of the conditions, src/hpwh/measure.cpp:150-159. -/
def conditionsNamed (x : List Char) : TestConditions :=
  let y := x.map Char.toUpper
  if y = "E50".toList then testConditionsE50
  else if y = "E95".toList then testConditionsE95
  else testConditionsUEF

/-! ## File names -/

/-- The file of the results, src/hpwh/measure.cpp:164-167; none is written without a directory or a name. -/
def resultsPath (dir name : List Char) : Option (List Char) :=
  if dir ≠ [] ∧ name ≠ [] then some (dir ++ '/' :: stem name ++ ".json".toList) else none

/-- The file of the test data, src/hpwh/measure.cpp:182-184. -/
def dataPath (dir model : List Char) : List Char :=
  let f := "test24hrEF_".toList ++ model ++ ".csv".toList
  if dir ≠ [] then dir ++ '/' :: f else f

/-- The file `convert` writes, src/hpwh/convert.cpp:99-106. `substr` throws if the text is shorter than five
characters (`length() - 5` is then a very large number). -/
def convertPath (dir given model spec : List Char) : Res (List Char) :=
  let x := if given = [] then model ++ '_' :: spec else given
  if x.length < 5 then .error .error
  else
    let y := if x.drop (x.length - 5) ≠ ".json".toList then x ++ ".json".toList else x
    .ok (if dir ≠ [] then dir ++ '/' :: y else y)

/-! ## measure -/

/-- Options of `measure`, src/hpwh/measure.cpp:40-54. -/
structure MeasureArgs where
  outputDir : List Char
  saveTestData : Bool
  resultsFilename : List Char
  drawProfileName : List Char
  testConfig : List Char

/-- What `measure` leaves: the results with the first-hour rating if it was found (written to a file or not), and the
table of test data with its file. -/
structure Measured (n k : ℕ) where
  sim : Sim n k
  rating : Option (ℚ × Designation)
  summary : TestSummary k
  results : Option (List Char)
  data : Option (List Char × List Line)

/-- The profile given, or that of the first-hour rating, src/hpwh/measure.cpp:105-148. -/
def findProfile {n k : ℕ} (m : Libm) (fuel limit : ℕ) (order : List Designation) (x : List Char) (s : Sim n k) :
    Res (Sim n k × Designation × Option (ℚ × Designation)) :=
  if x ≠ [] then
    match profileNamed order x with
    | some d => .ok (s, d, none)
    | none => .error .error
  else do
    let r ← Sim.findFirstHourRating m fuel limit s
    return (r.1, r.2.2, some r.2)

/-- `measure`, src/hpwh/measure.cpp:97-197, for a simulator named `name`. -/
def measure {n k : ℕ} (m : Libm) (fuel limit : ℕ) (order : List Designation) (shown : Shown) (name : List Char)
    (a : MeasureArgs) (s : Sim n k) : Res (Measured n k) := do
  let p ← findProfile m fuel limit order a.drawProfileName s
  let t ← Sim.run24hrTest m fuel limit (conditionsNamed a.testConfig) p.2.1 p.1
  let data ← (if a.saveTestData then do
      let h ← t.1.testHeading false
      let rows ← t.2.records.mapM fun r => t.1.testRow shown r false
      return some (dataPath a.outputDir name, h :: rows)
    else .ok none)
  return { sim := t.1, rating := p.2.2, summary := t.2, results := resultsPath a.outputDir a.resultsFilename
           data := data }

/-! ## The model a description is loaded under -/

/-- The number of a model. -/
def idOf (name : String) : ℤ := (Presets.findByName name).1

/-- The conditions of `configure` on the model's number, src/HPWH.cc:3069-3114. -/
def groupOf (id : ℤ) : Machine.PresetGroup :=
  if id = idOf "GE2012_50" then .largeDraw
  else if id = idOf "Sanco83" ∨ id = idOf "SancoGS3_45HPA_US_SP" ∨ id = idOf "Sanco119" ∨ id = idOf "Sanco43" then
    .fixedSetpoint
  else if idOf "NyleC25A_SP" ≤ id ∧ id ≤ idOf "NyleC250A_C_SP" then .enteringWater
  else if idOf "ColmacCxV_5_SP" ≤ id ∧ id ≤ idOf "ColmacCxA_30_SP" then .enteringWater
  else if id = idOf "Mitsubishi_QAHV_N136TAU_HPB_SP" then .enteringWater
  else if id = idOf "Scalable_MP" then .scalable
  else if idOf "TamScalable_SP" ≤ id ∧ id ≤ idOf "TamScalable_SP_Half" then .scalableEnteringWater
  else .other

/-- The conditions of `setUpGridAxes` on the model's number, src/Condenser.cc:1299-1306. -/
def styleOf (id : ℤ) : GridStyle :=
  if id = idOf "Mitsubishi_QAHV_N136TAU_HPB_SP" then .mitsubishi
  else if idOf "NyleC60A_MP" ≤ id ∧ id ≤ idOf "NyleC250A_C_MP" then .nyleMP
  else .other

/-- `model = …` before a description is read, src/HPWH.cc:3142,3165: what depends on the number. -/
def Machine.under {n k : ℕ} (id : ℤ) (M : Machine n k) : Machine n k :=
  { M with
    style := styleOf id
    sim := { M.sim with cfg := { M.sim.cfg with isStorageTank := decide (id = idOf "StorageTank") } } }

/-- `initFromJSON`, src/HPWH.cc:3158-3168, after the text is read. An unknown name has the number −1. -/
def Machine.initFromJSON {n k k₀ : ℕ} (m : Libm) (pow : ℚ → ℚ → ℚ) (b : Btwxt) (name : String) (base : Machine n k₀)
    (d : SimInput k) : Res (Machine n k) :=
  Machine.init m pow b (groupOf (idOf name)) (base.under (idOf name)) d

end HPWH
