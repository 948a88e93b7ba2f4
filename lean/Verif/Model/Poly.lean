import Verif.Model.HeatSource

/-! # Performance polynomials

`PerformancePolySet` (polynomials at several outside temperatures) and the regressions of central systems,
src/HPWH.hh:1266-1343 and src/HPWH.cc:4429-4560. -/

namespace HPWH

open _root_.HPWH.Units

/-- `PerformancePoly`, src/HPWH.hh:1266-1278. -/
structure Poly where
  T_F : ℚ
  input : List ℚ
  cop : List ℚ
  deriving DecidableEq

/-- `PerformancePolySet`, src/HPWH.hh:1280-1305. -/
abbrev PolySet := List Poly

/-- `linearInterp`, src/HPWHUtils.cc:245-248. Equal abscissas give NaN or infinity. -/
def linearInterp (x x0 x1 y0 y1 : ℚ) : Res ℚ :=
  if x1 - x0 = 0 then .error .nan else .ok (y0 + (x - x0) * (y1 - y0) / (x1 - x0))

namespace PolySet

/-- Loop of `getAmbientT_index`, src/HPWH.cc:4432-4439: `i0` and `i1`. -/
def indexLoop (t : ℚ) : PolySet → (i0 i1 : ℕ) → ℕ × ℕ
  | [], i0, i1 => (i0, i1)
  | p :: ps, i0, i1 => if t < p.T_F then (i0, i1) else indexLoop t ps i1 (i1 + 1)

/-- `getAmbientT_index`, src/HPWH.cc:4429-4446. -/
def ambientIndex (ps : PolySet) (ambientT : ℚ) : Res ℕ :=
  let r := indexLoop (C_TO_F ambientT) ps 0 0
  if r.2 > r.1 ∧ r.2 < ps.length then
    match ps[r.1]?, ps[r.2]? with
    | some p0, some p1 =>
      if p1.T_F - p0.T_F = 0 then .error .nan
      else .ok (if (C_TO_F ambientT - p0.T_F) / (p1.T_F - p0.T_F) < 1 / 2 then r.1 else r.2)
    | _, _ => .error .error
  else .ok r.1

/-- The two entries to interpolate between, src/HPWH.cc:4452-4485. `i` is the number of the first entry of
the list. With a single entry and a temperature at or above its own, `i_prev` wraps around and `at` throws. -/
def pairLoop (t : ℚ) : (i : ℕ) → PolySet → Res (ℕ × ℕ)
  | _, [] => .ok (0, 1)
  | i, p :: ps =>
    if t < p.T_F then .ok (if i = 0 then (0, 1) else (i - 1, i))
    else if ps.isEmpty then (if i = 0 then .error .error else .ok (i - 1, i))
    else pairLoop t (i + 1) ps

/-- `vector::at`: throws if out of range. -/
def entry (ps : PolySet) (i : ℕ) : Res Poly :=
  match ps[i]? with
  | some p => .ok p
  | none => .error .error

/-- The quadratic of one entry, src/HPWH.cc:4488-4502. Fewer than three coefficients are read out of
range. -/
def quadratic (c : List ℚ) (x : ℚ) : Res ℚ :=
  match c with
  | c0 :: c1 :: c2 :: _ => .ok (c0 + c1 * x + c2 * x * x)
  | _ => .error .ub

/-- `PerformancePolySet::evaluate`, src/HPWH.cc:4448-4511. -/
def evaluate (ps : PolySet) (externalT heatSourceT : ℚ) : Res Perf := do
  let ext := C_TO_F externalT
  let hs := C_TO_F heatSourceT
  let ij ← pairLoop ext 0 ps
  let a ← entry ps ij.1
  let b ← entry ps ij.2
  let cop1 ← quadratic a.cop hs
  let cop2 ← quadratic b.cop hs
  let in1 ← quadratic a.input hs
  let in2 ← quadratic b.input hs
  let cop ← linearInterp ext a.T_F b.T_F cop1 cop2
  let input ← linearInterp ext a.T_F b.T_F in1 in2
  return ⟨input, cop * input, cop⟩

end PolySet

/-! ## Central systems -/

/-- `regressedMethod`, src/HPWH.cc:4513-4518. Fewer than eleven coefficients are read out of range. -/
def regressedMethod (c : List ℚ) (x1 x2 x3 : ℚ) : Res ℚ :=
  match c with
  | c0 :: c1 :: c2 :: c3 :: c4 :: c5 :: c6 :: c7 :: c8 :: c9 :: c10 :: _ =>
    .ok (c0 + c1 * x1 + c2 * x2 + c3 * x3 + c4 * x1 * x1 + c5 * x2 * x2 + c6 * x3 * x3 + c7 * x1 * x2 +
      c8 * x1 * x3 + c9 * x2 * x3 + c10 * x1 * x2 * x3)
  | _ => .error .ub

/-- `regressedMethodMP`, src/HPWH.cc:4520-4525. -/
def regressedMethodMP (c : List ℚ) (x1 x2 : ℚ) : Res ℚ :=
  match c with
  | c0 :: c1 :: c2 :: c3 :: c4 :: c5 :: _ =>
    .ok (c0 + c1 * x1 + c2 * x2 + c3 * x1 * x1 + c4 * x2 * x2 + c5 * x1 * x2)
  | _ => .error .ub

/-- `PerformancePoly_CWHS_SP::make`, src/HPWH.cc:4527-4544, with the setpoint and the hot-side offset of the
heat exchanger at the time of the call. -/
def Poly.singlePass (p : Poly) (setpoint hotSideOffset externalT heatSourceT : ℚ) : Res Perf := do
  let t1 := C_TO_F externalT
  let t2 := C_TO_F (setpoint + hotSideOffset)
  let t3 := C_TO_F heatSourceT
  let input ← regressedMethod p.input t1 t2 t3
  let cop ← regressedMethod p.cop t1 t2 t3
  return ⟨KW_TO_W input, cop * KW_TO_W input, cop⟩

/-- `PerformancePoly_CWHS_MP::make`, src/HPWH.cc:4546-4560. -/
def Poly.multiPass (p : Poly) (externalT heatSourceT : ℚ) : Res Perf := do
  let t1 := C_TO_F externalT
  let t2 := C_TO_F heatSourceT
  let input ← regressedMethodMP p.input t1 t2
  let cop ← regressedMethodMP p.cop t1 t2
  return ⟨KW_TO_W input, cop * KW_TO_W input, cop⟩

end HPWH
