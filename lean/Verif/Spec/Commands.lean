import Verif.Model.Rating

/-! # What the commands are asked for (C89) -/

namespace HPWH.Spec

/-- The same text but for capital letters and blanks. -/
inductive SameWords : List Char → List Char → Prop
  | nil : SameWords [] []
  | left {a b} : SameWords a b → SameWords (' ' :: a) b
  | right {a b} : SameWords a b → SameWords a (' ' :: b)
  | char {c d a b} : c.toLower = d.toLower → SameWords a b → SameWords (c :: a) (d :: b)

/-- The name a user knows a draw profile by. -/
def ProfileName : Designation → String
  | .verySmall => "very small"
  | .low => "low"
  | .medium => "medium"
  | .high => "high"

/-- The conditions a user knows by a name: temperatures in °F of the surroundings, of the water supplied and of the air
the heat pump takes in. -/
inductive Conditions : String → ℚ → ℚ → ℚ → Prop
  | e50 : Conditions "E50" 50 50 50
  | uef : Conditions "UEF" (135 / 2) 58 (135 / 2)
  | e95 : Conditions "E95" 95 67 95

/-- `x` is the name of the file at `path`, without its directory and its extension; `..` is no file. -/
def IsStem (path x : List Char) : Prop :=
  ∃ dir ext, path = dir ++ (x ++ ext) ∧ (dir = [] ∨ ∃ d, dir = d ++ ['/']) ∧ x ≠ [] ∧ x ≠ ['.'] ∧ '/' ∉ x ∧
    ((ext = [] ∧ '.' ∉ x) ∨ ∃ e, ext = '.' :: e ∧ '.' ∉ e ∧ '/' ∉ e)

end HPWH.Spec
