import Verif.Model.Make
import Verif.Spec.Commands

/-! # Specification of `make`: fitting a heat pump to an energy factor -/

namespace HPWH.Spec

variable {n k : ℕ}

/-- Evaluations of a metric one after the other, with the points, the values and the states between. -/
inductive Evaluates {σ : Type} (metric : ℚ → σ → Res (ℚ × σ)) : σ → List (ℚ × ℚ) → σ → Prop
  | nil (s) : Evaluates metric s [] s
  | cons {x v s s1 l s2} : metric x s = .ok (v, s1) → Evaluates metric s1 l s2 → Evaluates metric s ((x, v) :: l) s2

/-- How the search for the target that begins at `x0`, with `step` to the neighbour, ends with `x` after the evaluations
`l`: the last value is as demanded and `x` is where it was found; or the value at one of the first two points is, and `x` is
the first point; or the search was given up after 19 steps. -/
structure SearchEnds (good : ℚ → Prop) (x0 step x : ℚ) (l : List (ℚ × ℚ)) : Prop where
  begins : ∃ v0 v1 rest, l = (x0, v0) :: (x0 + step, v1) :: rest
  short : l.length ≤ 23
  ends : (∃ v, l.getLast? = some (x, v) ∧ good v) ∨
    (x = x0 ∧ ∃ e ∈ l, good e.2 ∧ (e.1 = x0 ∨ e.1 = x0 + step)) ∨ 21 ≤ l.length

/-- A heat pump, not a resistance element. -/
def IsPump (c : SourceCfg n k) : Prop := ∃ b, c.kind = .condenser b

/-- The settings of `s'` are those of `s`, but heat pump `i` performs as the polynomials say. -/
structure Equipped (i : Fin k) (ps : PolySet) (s s' : Sim n k) : Prop where
  others : ∀ j, j ≠ i → s'.cfg.src j = s.cfg.src j
  pump : ∃ c e, (s.cfg.src i).kind = .condenser c ∧
    s'.cfg.src i = { s.cfg.src i with kind := .condenser { c with evaluate := e } } ∧
    ∀ setpoint T W, ps.evaluate T W = .ok (e setpoint T W)
  rest : s'.cfg = { s.cfg with src := s'.cfg.src }

/-- The polynomials with the constant of the COP of entry `j` replaced by `x`. -/
def WithConstant (ps : PolySet) (j : ℕ) (x : ℚ) (qs : PolySet) : Prop :=
  qs.length = ps.length ∧ ∀ l (h : l < ps.length) (h' : l < qs.length),
    qs[l] = if l = j then { ps[l] with cop := x :: ps[l].cop.tail } else ps[l]

/-- 24-hour tests one after the other, each with another constant: the constants with the energy factors found. Each
starts with the water heater as the last one left it. -/
inductive Trials (m : Libm) (fuel limit : ℕ) (c : TestConditions) (d : Designation) (i : Fin k) (ps : PolySet) (j : ℕ) :
    Sim n k → List (ℚ × ℚ) → Sim n k → Prop
  | nil (s) : Trials m fuel limit c d i ps j s [] s
  | cons {x qs s s1 s2 t l s3} : WithConstant ps j x qs → Equipped i qs s s1 → s1 = { s with cfg := s1.cfg } →
      Sim.run24hrTest m fuel limit c d s1 = .ok (s2, t) → Trials m fuel limit c d i ps j s2 l s3 →
      Trials m fuel limit c d i ps j s ((x, t.EF) :: l) s3

/-- The polynomials with other constants of the COP, entry by entry. -/
def WithConstants (ps : PolySet) (xs : List ℚ) (qs : PolySet) : Prop :=
  xs.length = ps.length ∧ qs.length = ps.length ∧ ∀ l (h : l < ps.length) (h' : l < qs.length) (h'' : l < xs.length),
    qs[l] = { ps[l] with cop := xs[l] :: ps[l].cop.tail }

/-- Heat pump `i` of `s` and of `s'` perform alike when the air it draws its heat from is at `T`. -/
def PerformsAlike (i : Fin k) (T : ℚ) (s s' : Sim n k) : Prop :=
  ∃ c c', (s.cfg.src i).kind = .condenser c ∧ (s'.cfg.src i).kind = .condenser c' ∧
    ∀ setpoint W, c.evaluate setpoint T W = c'.evaluate setpoint T W

end HPWH.Spec
