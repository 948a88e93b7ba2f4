import Verif.Model.Poly

/-! # Fitting performance coefficients

`Fitter` with its one-parameter search (secant) and two-parameter search (damped least squares),
src/HPWHFitter.cc, and the calls that make a generic model from it, src/HPWH.cc:4341-4427.

A metric is evaluated by running a simulation, which changes the simulator: here a metric is any function
of the parameter values and of a state `σ` (the simulator), and gives a value and the next state. -/

namespace HPWH

namespace Fit

/-- `DBL_MIN`, the code's mark for a function value that is not known, src/HPWHFitter.cc:63, 71. -/
def dblMin : ℚ := 1 / 2 ^ 1022

/-- A metric of one parameter (`Metric::evaluate` after the parameter was set),
src/HPWHFitter.cc:8-19, src/HPWHFitter.hh:127-175. -/
abbrev Metric (σ : Type) := ℚ → σ → Res (ℚ × σ)

/-- What a search leaves behind: the code it returns, the point `x1` with its value `f1`, the value the
parameter itself has, and the state. -/
structure Outcome (σ : Type) where
  code : ℤ
  x1 : ℚ
  f1 : ℚ
  param : ℚ
  state : σ

variable {σ : Type}

/-- The loop of `secant`, src/HPWHFitter.cc:84-106, `room` passes before `i` reaches 20. The parameter
changes only when the metric is evaluated. -/
def secantLoop (metric : Metric σ) (f fHi fLo : ℚ) :
    (room i : ℕ) → (x1 f1 x2 f2 param : ℚ) → σ → Res (Outcome σ)
  | 0, i, x1, f1, _, _, param, s => .ok ⟨i, x1, f1, param, s⟩
  | room + 1, i, x1, f1, x2, f2, param, s =>
    if f1 ≤ fHi ∧ f1 ≥ fLo then .ok ⟨0, x1, f1, param, s⟩
    else if |f1 - f2| < 1 / 10 ^ 20 then .ok ⟨-i, x1, f1, param, s⟩
    else
      let xN := x1 + (x2 - x1) * (f - f1) / (f2 - f1)
      (metric xN s) >>= fun r => secantLoop metric f fHi fLo room (i + 1) xN r.1 x1 f1 xN r.2

/-- The second half of `secant`, src/HPWHFitter.cc:74-107: the closer point first, then the loop. -/
def secantSearch (metric : Metric σ) (f fHi fLo x1 f1 x2 f2 param : ℚ) (s : σ) : Res (Outcome σ) :=
  if |f - f1| > |f - f2| then secantLoop metric f fHi fLo 19 1 x2 f2 x1 f1 param s
  else secantLoop metric f fHi fLo 19 1 x1 f1 x2 f2 param s

/-- `secant`, src/HPWHFitter.cc:33-108. -/
def secant (metric : Metric σ) (f eps x1 f1 x2 f2 epsLo param : ℚ) (s : σ) : Res (Outcome σ) :=
  let fHi := f + eps
  let fLo := f - if epsLo ≥ 0 then epsLo else eps
  (if f1 = dblMin then (metric x1 s) >>= fun r => .ok (r.1, x1, r.2) else .ok (f1, param, s)) >>=
  fun a =>
    if a.1 ≤ fHi ∧ a.1 ≥ fLo then .ok ⟨0, x1, a.1, a.2.1, a.2.2⟩
    else
      (if f2 = dblMin then (metric x2 a.2.2) >>= fun r => .ok (r.1, x2, r.2)
        else .ok (f2, a.2.1, a.2.2)) >>=
      fun b => secantSearch metric f fHi fLo x1 a.1 x2 b.1 b.2.1 b.2.2

/-- `Fitter::fit` with one parameter, src/HPWHFitter.cc:247-264: final value of the parameter and state. -/
def fitOne (metric : Metric σ) (target increment value0 : ℚ) (s : σ) : Res (ℚ × σ) :=
  (metric value0 s) >>= fun r0 =>
  (metric (value0 + increment) r0.2) >>= fun r1 =>
  (secant metric target (1 / 10 ^ 12) value0 r0.1 (value0 + increment) r1.1 (1 / 10 ^ 12) value0 r1.2) >>=
  fun o => if o.code < 0 then .error .error else .ok (o.param, o.state)

/-! ## Two parameters -/

/-- `getLeftDampedInverse`, src/HPWHFitter.cc:115-144, of a matrix of two entries. -/
def leftDampedInverse (nu a b : ℚ) : Option (ℚ × ℚ) :=
  let A := (1 + nu) * a * a
  let B := (1 + nu) * b * b
  let C := a * b
  let det := A * B - C * C
  if |det| < 1 / 10 ^ 12 then none
  else some ((a * B - b * C) / det, (-a * C + b * A) / det)

/-- A metric of two parameters. -/
abbrev Metric2 (σ : Type) := ℚ → ℚ → σ → Res (ℚ × σ)

/-- `EF_Metric::findError`, src/HPWHFitter.hh:180; the tolerance is 10⁻⁶ (src/HPWHFitter.hh:142). -/
def findError (metric : Metric2 σ) (target p q : ℚ) (s : σ) : Res (ℚ × σ) :=
  (metric p q s) >>= fun r => .ok ((r.1 - target) / (1 / 10 ^ 6), r.2)

/-- Variables of the least-squares loop, src/HPWHFitter.cc:151-237. -/
structure Squares (σ : Type) where
  p : ℚ
  q : ℚ
  incP : ℚ
  incQ : ℚ
  nu : ℚ
  FOM : ℚ
  state : σ

/-- Trying the increments, src/HPWHFitter.cc:186-222: the new variables if the error became smaller. -/
def tryIncrements (metric : Metric2 σ) (target error : ℚ) (a : Squares σ) (jP jQ : ℚ) :
    Res (Option (Squares σ) × σ) :=
  match leftDampedInverse a.nu jP jQ with
  | none => .ok (none, a.state)
  | some (vP, vQ) =>
    (findError metric target (a.p + -vP * error) (a.q + -vQ * error) a.state) >>= fun e =>
      if e.1 * e.1 < a.FOM then
        .ok (some
          { p := a.p + -vP * error, q := a.q + -vQ * error
            incP := |-vP * error| / 10 ^ 3, incQ := |-vQ * error| / 10 ^ 3
            nu := a.nu / 10, FOM := e.1 * e.1, state := e.2 }, e.2)
      else .ok (none, e.2)

/-- The end of a pass, src/HPWHFitter.cc:224-231. -/
def damp (a : Squares σ) : Option (Squares σ) × σ → Res (Squares σ)
  | (some b, _) => .ok b
  | (none, s) => if a.nu * 10 > 10 ^ 6 then .error .error else .ok { a with nu := a.nu * 10, state := s }

/-- The Jacobian, src/HPWHFitter.cc:176-182. A zero increment gives NaN or infinity. -/
def jacobian (metric : Metric2 σ) (target error : ℚ) (a : Squares σ) : Res (ℚ × ℚ × σ) :=
  (findError metric target (a.p + a.incP) a.q a.state) >>= fun e1 =>
  (findError metric target a.p (a.q + a.incQ) e1.2) >>= fun e2 =>
    if a.incP = 0 ∨ a.incQ = 0 then .error .nan
    else .ok ((e1.1 - error) / a.incP, (e2.1 - error) / a.incQ, e2.2)

/-- One pass, src/HPWHFitter.cc:159-231. -/
def squaresPass (metric : Metric2 σ) (target : ℚ) (a : Squares σ) : Res (Squares σ) :=
  (findError metric target a.p a.q a.state) >>= fun e =>
  (jacobian metric target e.1 { a with FOM := e.1 * e.1, state := e.2 }) >>= fun j =>
  (tryIncrements metric target e.1 { a with FOM := e.1 * e.1, state := j.2.2 } j.1 j.2.1) >>=
  damp { a with FOM := e.1 * e.1, state := j.2.2 }

/-- `performLeastSquaresMinimization`, src/HPWHFitter.cc:151-237, with `room` passes left. -/
def squaresLoop (metric : Metric2 σ) (target : ℚ) : (room : ℕ) → Squares σ → Res (Squares σ)
  | 0, _ => .error .error
  | room + 1, a =>
    (squaresPass metric target a) >>= fun b =>
      if b.FOM < 1 / 10 ^ 12 then .ok b else squaresLoop metric target room b

/-- `Fitter::fit` with two parameters, src/HPWHFitter.cc:265-268. -/
def fitTwo (metric : Metric2 σ) (target p q incP incQ : ℚ) (s : σ) : Res (ℚ × ℚ × σ) :=
  (squaresLoop metric target 20 ⟨p, q, incP, incQ, 1 / 1000, 0, s⟩) >>= fun a => .ok (a.p, a.q, a.state)

end Fit

/-! ## Generic models -/

namespace PolySet

/-- Writing the constant COP coefficient of entry `i` (the parameter the fit varies),
src/HPWHFitter.hh:68-82, 117-120. Without such an entry or coefficient the code reports an error when the
parameter is made; here nothing is written. -/
def setCop0 (ps : PolySet) (i : ℕ) (x : ℚ) : PolySet :=
  match ps[i]? with
  | some p => ps.set i { p with cop := p.cop.set 0 x }
  | none => ps

/-- The constant COP coefficient of entry `i`; an error without such an entry or coefficient,
src/HPWHFitter.hh:68-82. -/
def cop0 (ps : PolySet) (i : ℕ) : Res ℚ :=
  match ps[i]? with
  | some ⟨_, _, c :: _⟩ => .ok c
  | _ => .error .error

/-- `makeGenericEF`, src/HPWH.cc:4341-4380, of a system with a compressor: the new polynomials and state.
`ef` runs the 24-hour test with the given polynomials; `perf` is `Condenser::getPerformance` with these
polynomials at the outside temperature of the test. The test summary returned is the one of the last
evaluation and is not kept here. -/
def makeGenericEF {σ : Type} (ef : PolySet → σ → Res (ℚ × σ)) (perf : PolySet → ℚ → Res Perf)
    (maxSetpoint ambientT target : ℚ) (ps : PolySet) (s : σ) : Res (PolySet × σ) :=
  (ps.ambientIndex ambientT) >>= fun i =>
  (ps.cop0 i) >>= fun x0 =>
  (Fit.fitOne (fun x s => ef (ps.setCop0 i x) s) target (1 / 10 ^ 9) x0 s) >>= fun r =>
  (perf (ps.setCop0 i r.1) maxSetpoint) >>= fun p1 =>
    if p1.cop < 0 then .error .error
    else (perf (ps.setCop0 i r.1) 0) >>= fun p0 =>
      if p0.cop < p1.cop then .error .error else .ok (ps.setCop0 i r.1, r.2)

/-- Adding to the constant COP coefficient of an entry, src/HPWH.cc:4406-4407. -/
def addCop0 (d : ℚ) (p : Poly) : Res Poly :=
  match p.cop with
  | c :: cs => .ok { p with cop := (c + d) :: cs }
  | [] => .error .ub

/-- Adding to all entries but entry `i`, src/HPWH.cc:4402-4408; `j` is the number of the first entry of the
list. -/
def addOthers (d : ℚ) (i : ℕ) : (j : ℕ) → PolySet → Res PolySet
  | _, [] => .ok []
  | j, p :: ps =>
    (if j ≠ i then addCop0 d p else .ok p) >>= fun q =>
    (addOthers d i (j + 1) ps) >>= fun qs => .ok (q :: qs)

/-- `makeGenericUEF`, src/HPWH.cc:4387-4412. The code reads the original coefficient with `operator[]`, so a
missing one is undefined behaviour there; `cop0` reports it as an error of its own. -/
def makeGenericUEF {σ : Type} (ef : PolySet → σ → Res (ℚ × σ)) (perf : PolySet → ℚ → Res Perf)
    (maxSetpoint ambientT target : ℚ) (ps : PolySet) (s : σ) : Res (PolySet × σ) :=
  (ps.ambientIndex ambientT) >>= fun i =>
  (ps.cop0 i) >>= fun x0 =>
  (makeGenericEF ef perf maxSetpoint ambientT target ps s) >>= fun r =>
  (r.1.cop0 i) >>= fun x1 =>
  (addOthers (x1 - x0) i 0 r.1) >>= fun qs => .ok (qs, r.2)

end PolySet

end HPWH
