import Verif.Model.PresetTable

/-! # Finding built-in models by name and number

`hpwh_presets` (made from scripts/python/templates/presets.h.j2 and presets.cpp.j2) and its use,
src/HPWH.cc:3048-3065 and src/HPWHpresets.cc:331-348. A number is any value of the underlying type of `MODELS`, to which
the command line casts what it is given. -/

namespace HPWH.Presets

/-- The number and name of `hpwh_presets::find_by_name`, scripts/python/templates/presets.cpp.j2:20-28; −1 is `unknown`. -/
def findByName (name : String) : ℤ × String :=
  match models.find? fun q => q.1 = name with
  | some q => (q.2, q.1)
  | none => (-1, "unknown")

/-- `hpwh_presets::find_by_id`, scripts/python/templates/presets.cpp.j2:30-39. -/
def findById (id : ℤ) : ℤ × String :=
  match models.find? fun q => q.2 = id with
  | some q => (q.2, q.1)
  | none => (-1, "unknown")

/-- `getPresetNumberFromName`, src/HPWH.cc:3048-3053: the number, if the function returns true. -/
def numberFromName (name : String) : Option ℤ :=
  if (findByName name).1 ≠ -1 then some (findByName name).1 else none

/-- `getPresetNameFromNumber`, src/HPWH.cc:3056-3065: the name, if the function returns true. -/
def nameFromNumber (id : ℤ) : Option String :=
  if (findById id).1 ≠ -1 then some (findById id).2 else none

variable {n₀ k₀ : ℕ}

/-- The branch of `initLegacy` for a number, src/HPWHpresets.cc:355-4351: that of the model whose enumerator has this
number. Some branches are for several models; they are separate entries of the table. -/
def branch (id : ℤ) : Option Preset :=
  match models.find? fun q => q.2 = id with
  | some q => (table.find? fun r => r.1 = q.1).map (·.2)
  | none => none

/-- `initLegacy(hpwh_presets::MODELS)`, src/HPWHpresets.cc:344-4374. -/
def initByNumber (m : Libm) (pow : ℚ → ℚ → ℚ) (grid : ℚ → ℚ → ℚ → Perf) (base : Sim n₀ k₀) (id : ℤ) :
    Res ((p : Preset) × Sim p.n p.k) :=
  match branch id with
  | some p => (p.initLegacy m pow grid base).map fun s => ⟨p, s⟩
  | none => .error .error

/-- `initLegacy(const std::string&)`, src/HPWHpresets.cc:331-342. -/
def initByName (m : Libm) (pow : ℚ → ℚ → ℚ) (grid : ℚ → ℚ → ℚ → Perf) (base : Sim n₀ k₀) (name : String) :
    Res ((p : Preset) × Sim p.n p.k) :=
  match numberFromName name with
  | some id => initByNumber m pow grid base id
  | none => .error .error

end HPWH.Presets
