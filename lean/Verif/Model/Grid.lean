import Verif.Model.Basic
import Mathlib.Data.List.Sort
import Mathlib.Algebra.BigOperators.Group.List.Basic

/-! # Performance grids: swapping axes, arranging grid vectors -/

namespace HPWH

/-- Axes and tables of a performance grid, the arguments `perfGrid` and `perfGridValues` of
`swapGridAxes`, src/HPWHUtils.cc:251-254. The entries may be of any type. -/
structure PerfGrid (α : Type) where
  axes : List (List α)
  tables : List (List α)
deriving DecidableEq

namespace PerfGrid

variable {α : Type}

/-- `axes_ind`, src/HPWHUtils.cc:261-270. -/
def axesInd (nAxes i j : ℕ) : List ℕ :=
  (List.range nAxes).map fun a => if a = i then j else if a = j then i else a

/-- `dimSize`, src/HPWHUtils.cc:277-279. -/
def dimSize (axes : List (List α)) (a : ℕ) : ℕ := ((axes.drop (a + 1)).map List.length).prod

/-- `perfGrid[a].size()`; the caller checks the range. -/
def axisSize (axes : List (List α)) (a : ℕ) : ℕ := (axes.getD a []).length

/-- `iElemNew`, src/HPWHUtils.cc:274-281. -/
def elemNew (axes : List (List α)) (ind : List ℕ) (pos : ℕ → ℕ) : ℕ :=
  ind.foldl (fun acc a => acc + dimSize axes a * pos a) 0

/-- The odometer, src/HPWHUtils.cc:286-297; the list holds `axes_ind` from its last entry to its
first. -/
def advance (axes : List (List α)) : List ℕ → (ℕ → ℕ) → ℕ → ℕ
  | [], pos => pos
  | a :: as, pos =>
    let pos1 := Function.update pos a (pos a + 1)
    if pos1 a < axisSize axes a then pos1 else advance axes as (Function.update pos1 a 0)

/-- The loop over the elements, src/HPWHUtils.cc:271-298: `room` elements are left, `o0` and `o1` are the
original tables. Gives the elements written to the two tables. Reading outside a table is undefined
behaviour. -/
def swapLoop (axes : List (List α)) (ind : List ℕ) (o0 o1 : List α) :
    (room : ℕ) → (ℕ → ℕ) → Res (List α × List α)
  | 0, _ => .ok ([], [])
  | room + 1, pos =>
    match o0[elemNew axes ind pos]?, o1[elemNew axes ind pos]? with
    | some x, some y => do
      let r ← swapLoop axes ind o0 o1 room (advance axes ind.reverse pos)
      return (x :: r.1, y :: r.2)
    | _, _ => .error .ub

/-- `std::swap` of two entries, src/HPWHUtils.cc:299. -/
def swapEntries {β : Type} (l : List β) (i j : ℕ) (hi : i < l.length) (hj : j < l.length) : List β :=
  (l.set i l[j]).set j l[i]

/-- `swapGridAxes`, src/HPWHUtils.cc:251-300. Axis numbers out of range, fewer than two tables, and
writing beyond the second table are undefined behaviour. Only the first two tables are changed. -/
def swapAxes (g : PerfGrid α) (i j : ℕ) : Res (PerfGrid α) :=
  match g.tables with
  | o0 :: o1 :: rest =>
    if h : i < g.axes.length ∧ j < g.axes.length then
      if o1.length < o0.length then .error .ub
      else do
        let r ← swapLoop g.axes (axesInd g.axes.length i j) o0 o1 o0.length fun _ => 0
        return { axes := swapEntries g.axes i j h.1 h.2
                 tables := r.1 :: (r.2 ++ o1.drop o0.length) :: rest }
    else .error .ub
  | _ => .error .ub

end PerfGrid

/-! ## Grid vectors -/

/-- The loop of `arrangeGridVector`, src/Condenser.cc:183-190, after the first entry: keeps an entry that
is greater than the one before it. -/
def skipDuplicates (prev : ℚ) : List ℚ → List ℚ
  | [] => []
  | x :: xs => if x > prev then x :: skipDuplicates x xs else skipDuplicates x xs

/-- `arrangeGridVector`, src/Condenser.cc:177-192. `std::sort` of numbers by `<` is modelled by
insertion sort; equal numbers cannot be told apart. -/
def arrangeGridVector (v : List ℚ) : List ℚ :=
  match v.insertionSort (· ≤ ·) with
  | [] => []
  | x :: xs => x :: skipDuplicates x xs

/-- `trimGridVector`, src/Condenser.cc:194-204. -/
def trimGridVector (v : List ℚ) (minT maxT : ℚ) : List ℚ :=
  (arrangeGridVector v).filter fun x => decide (minT ≤ x) && decide (x ≤ maxT)

end HPWH
