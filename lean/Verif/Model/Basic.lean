import Mathlib.Data.Rat.Defs
import Mathlib.Algebra.Order.Ring.Rat

/-! # Physical constants and outcomes -/

namespace HPWH

/-- `DENSITYWATER_kgperL`, src/HPWH.cc:64. -/
def rhoWater : ℚ := 995 / 1000
/-- `KWATER_WpermC`, src/HPWH.cc:65. -/
def kWater : ℚ := 62 / 100
/-- `CPWATER_kJperkgC`, src/HPWH.cc:66. -/
def cpWater : ℚ := 4180 / 1000
/-- `TOL_MINVALUE`, src/HPWH.cc:68. -/
def tolMin : ℚ := 1 / 10000

/-- Ways in which a call can fail to produce a result:
* `error`  – `send_error` was called; the default courier throws;
* `ub`     – the code would access memory out of range or otherwise leave defined behaviour;
* `nan`    – the code would divide zero by zero and carry on with a NaN;
* `diverge` – a loop of the code does not terminate. -/
inductive Err
  | error
  | ub
  | nan
  | diverge
  deriving DecidableEq, Repr

/-- Result of a call. -/
abbrev Res (α : Type) := Except Err α

/-- Lets the kernel evaluate "the call succeeds with a result such that …". -/
instance decidableExistsOk {ε α : Type} (r : Except ε α) (p : α → Prop) [DecidablePred p] :
    Decidable (∃ a, r = .ok a ∧ p a) :=
  match r with
  | .ok a => decidable_of_iff (p a)
      ⟨fun h => ⟨a, rfl, h⟩, fun ⟨_, h, hp⟩ => by cases h; exact hp⟩
  | .error _ => isFalse (fun ⟨_, h, _⟩ => by cases h)

end HPWH
