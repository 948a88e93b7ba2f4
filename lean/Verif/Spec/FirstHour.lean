import Verif.Model.Rating

/-! # What the first-hour rating measures

Of a history `S` of a simulator, minute `t` leads from `S t` to `S (t + 1)`. -/

namespace HPWH.Spec

variable {n k : ℕ}

/-- Temperature of the water delivered in minute `t`. -/
def outletOf (S : ℕ → Sim n k) (t : ℕ) : ℚ := (S (t + 1)).tank.outletT

/-- Mean temperature of the tank after minute `t`. -/
def meanOf (S : ℕ → Sim n k) (t : ℕ) : ℚ := (∑ i, (S (t + 1)).tank.nodeTs i) / ((n : ℚ) + 1)

/-- Whether the system heats in minute `t`. -/
def heats (S : ℕ → Sim n k) (t : ℕ) : Prop := (S (t + 1)).isHeating = true

/-- In minute `t` of a draw that began in minute `b` the water is more than 15 °F colder than it was
in the draw, or than `T0`. -/
def Dropped (S : ℕ → Sim n k) (T0 : ℚ) (b t : ℕ) : Prop :=
  outletOf S t < T0 - 15 * (5 / 9) ∨ ∃ u, b ≤ u ∧ u ≤ t ∧ outletOf S t < outletOf S u - 15 * (5 / 9)

/-- A draw of the minutes `b` to `e`: it ends with the first minute in which the water has become colder. -/
structure DrawLasts (S : ℕ → Sim n k) (T0 : ℚ) (b e : ℕ) : Prop where
  order : b ≤ e
  dropped : Dropped S T0 b e
  before : ∀ t, b ≤ t → t < e → ¬ Dropped S T0 b t

/-- In minute `t` of the recovery from a draw that ended in minute `e`, heated since minute `h`, the tank goes on
becoming warmer, within the first hour. -/
def Warms (S : ℕ → Sim n k) (e h t : ℕ) : Prop :=
  meanOf S (if t = h + 1 then e else t - 1) < meanOf S t ∧ heats S t ∧ t < 60

/-- The pause between a draw that ended in minute `e` and the next draw, from minute `b` on: until the system
heats, and then until the tank no longer becomes warmer. -/
def Pause (S : ℕ → Sim n k) (e b : ℕ) : Prop :=
  ∃ h g, e < h ∧ h < g ∧ b = g + 1 ∧ heats S h ∧ (∀ t, e < t → t < h → ¬ heats S t) ∧
    ¬ Warms S e h g ∧ ∀ t, h < t → t < g → Warms S e h t

/-- The temperature a draw after the draws `l` is compared with: 0 °C at first, later that of the end of
the previous draw. -/
def comparedWith (S : ℕ → Sim n k) (l : List (ℕ × ℕ)) : ℚ :=
  match l.getLast? with
  | none => 0
  | some d => outletOf S d.2

/-- `l` are all draws, with first and last minute, that ended in the first hour, and after them a further draw
begins in minute `b`. -/
inductive Draws (S : ℕ → Sim n k) : List (ℕ × ℕ) → ℕ → Prop
  | first : Draws S [] 0
  | again {l : List (ℕ × ℕ)} {b e b' : ℕ} : Draws S l b → DrawLasts S (comparedWith S l) b e → e < 60 →
      Pause S e b' → Draws S (l ++ [(b, e)]) b'

/-- Minute `t` belongs to one of the draws `l`. -/
def InDraws (l : List (ℕ × ℕ)) (t : ℕ) : Prop := ∃ d ∈ l, d.1 ≤ t ∧ t ≤ d.2

/-- Minutes of the draws `l`, the last of each not counted. -/
def countedMinutes (l : List (ℕ × ℕ)) : ℚ := (l.map fun d => (d.2 : ℚ) - d.1).sum

/-- Mean temperature of the water delivered in all minutes of the draws `l`. -/
def meanOutlet (S : ℕ → Sim n k) (l : List (ℕ × ℕ)) : ℚ :=
  (l.map fun d => ∑ t ∈ Finset.Icc d.1 d.2, outletOf S t).sum / (l.map fun d => (d.2 : ℚ) - d.1 + 1).sum

/-- The part of the last draw, of the minutes `b` to `e`, that counts: all of it if it is the only one, else the
excess of the mean temperature of all water over the end of the previous draw, compared with what this excess
was after the previous draw. -/
def lastShare (S : ℕ → Sim n k) (l : List (ℕ × ℕ)) (b e : ℕ) : ℚ :=
  match l.getLast? with
  | none => 1
  | some d => (meanOutlet S (l ++ [(b, e)]) - outletOf S d.2) / (meanOutlet S l - outletOf S d.2)

end HPWH.Spec
