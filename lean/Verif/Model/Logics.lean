import Verif.Model.Settings

/-! # The heating logics the library builds

Model of the functions of `HPWH` that build heating logics for a part of the tank, of the constructor
from numbered twelfths of the tank, and of the conversion of decision points. -/

namespace HPWH

open _root_.HPWH.Units

/-- `getRangeDistribution`, src/HPWH.cc:1557-1573. -/
def rangeDist (bottom top : ℚ) : WDist :=
  (if bottom > 0 then [⟨bottom, 0⟩] else []) ++ [⟨top, 1⟩] ++ (if top < 1 then [⟨1, 0⟩] else [])

/-- `convertTempToC`, src/HPWH.hh:1662-1665: every unit other than °C is taken for °F. -/
def convertTempToC (x : ℚ) (u : UnitTag) (absolute : Bool) : ℚ :=
  if u = .C then x else if absolute then F_TO_C x else dF_TO_dC x

/-- `TempBasedHeatingLogic(desc, dist, decisionPoint, …)`, src/HPWHHeatingLogic.hh:112-124, with its
default arguments. -/
def tempLogic (description : String) (dist : Dist) (decisionPoint : ℚ) (isAbsolute : Bool := false)
    (cmp : Cmp := .less) (isHTS : Bool := false) (checksStandby : Bool := false) : Logic where
  kind := .temp isAbsolute dist
  decisionPoint := decisionPoint
  cmp := cmp
  isEnteringWaterHighTempShutoff := isHTS
  checkStandby := checksStandby
  description := description

namespace Logics

/-- `wholeTank`, src/HPWH.cc:1575-1583. -/
def wholeTank (x : ℚ) (u : UnitTag) (absolute : Bool) : Logic :=
  tempLogic "whole tank" (.weighted (rangeDist 0 1)) (convertTempToC x u absolute) absolute

/-- `topThird`, src/HPWH.cc:1585-1589. -/
def topThird (x : ℚ) : Logic := tempLogic "top third" (.weighted (rangeDist (2 / 3) 1)) x

/-- `topThird_absolute`, src/HPWH.cc:1591-1596. -/
def topThirdAbsolute (x : ℚ) : Logic :=
  tempLogic "top third absolute" (.weighted (rangeDist (2 / 3) 1)) x true

/-- `secondThird`, src/HPWH.cc:1598-1606. -/
def secondThird (x : ℚ) (u : UnitTag) (absolute : Bool) : Logic :=
  tempLogic "second third" (.weighted (rangeDist (1 / 3) (2 / 3))) (convertTempToC x u absolute)
    absolute

/-- `bottomThird`, src/HPWH.cc:1608-1612. -/
def bottomThird (x : ℚ) : Logic := tempLogic "bottom third" (.weighted (rangeDist 0 (1 / 3))) x

/-- `bottomSixth`, src/HPWH.cc:1614-1618. -/
def bottomSixth (x : ℚ) : Logic := tempLogic "bottom sixth" (.weighted (rangeDist 0 (1 / 6))) x

/-- `bottomSixth_absolute`, src/HPWH.cc:1620-1625. -/
def bottomSixthAbsolute (x : ℚ) : Logic :=
  tempLogic "bottom sixth absolute" (.weighted (rangeDist 0 (1 / 6))) x true

/-- `secondSixth`, src/HPWH.cc:1627-1631. -/
def secondSixth (x : ℚ) : Logic :=
  tempLogic "second sixth" (.weighted (rangeDist (1 / 6) (2 / 6))) x

/-- `thirdSixth`, src/HPWH.cc:1633-1637. -/
def thirdSixth (x : ℚ) : Logic :=
  tempLogic "third sixth" (.weighted (rangeDist (2 / 6) (3 / 6))) x

/-- `fourthSixth`, src/HPWH.cc:1639-1643. -/
def fourthSixth (x : ℚ) : Logic :=
  tempLogic "fourth sixth" (.weighted (rangeDist (3 / 6) (4 / 6))) x

/-- `fifthSixth`, src/HPWH.cc:1645-1649. -/
def fifthSixth (x : ℚ) : Logic :=
  tempLogic "fifth sixth" (.weighted (rangeDist (4 / 6) (5 / 6))) x

/-- `topSixth`, src/HPWH.cc:1651-1655. -/
def topSixth (x : ℚ) : Logic := tempLogic "top sixth" (.weighted (rangeDist (5 / 6) 1)) x

/-- `bottomHalf`, src/HPWH.cc:1657-1661. -/
def bottomHalf (x : ℚ) : Logic := tempLogic "bottom half" (.weighted (rangeDist 0 (1 / 2))) x

/-- `bottomTwelfth`, src/HPWH.cc:1663-1668. -/
def bottomTwelfth (x : ℚ) : Logic :=
  tempLogic "bottom twelfth" (.weighted (rangeDist 0 (1 / 12))) x

/-- `standby`, src/HPWH.cc:1670-1675. -/
def standby (x : ℚ) : Logic := tempLogic "standby" .top x false .less false true

/-- `topNode`, src/HPWH.cc:1677-1682. -/
def topNode (x : ℚ) : Logic := tempLogic "top of tank" .top x false .less false false

/-- `topNodeMaxTemp`, src/HPWH.cc:1684-1689. -/
def topNodeMaxTemp (x : ℚ) : Logic := tempLogic "top of tank" .top x true .greater

/-- `bottomNodeMaxTemp`, src/HPWH.cc:1691-1702. -/
def bottomNodeMaxTemp (x : ℚ) (isHTS : Bool) : Logic :=
  tempLogic "bottom of tank" .bottom x true .greater isHTS

/-- `bottomTwelfthMaxTemp`, src/HPWH.cc:1704-1709. -/
def bottomTwelfthMaxTemp (x : ℚ) : Logic :=
  tempLogic "bottom twelfth" (.weighted (rangeDist 0 (1 / 12))) x true .greater

/-- `topThirdMaxTemp`, src/HPWH.cc:1711-1716. -/
def topThirdMaxTemp (x : ℚ) : Logic :=
  tempLogic "top third" (.weighted (rangeDist (2 / 3) 1)) x true .greater

/-- `bottomSixthMaxTemp`, src/HPWH.cc:1718-1723. -/
def bottomSixthMaxTemp (x : ℚ) : Logic :=
  tempLogic "bottom sixth" (.weighted (rangeDist 0 (1 / 6))) x true .greater

/-- `secondSixthMaxTemp`, src/HPWH.cc:1725-1730. -/
def secondSixthMaxTemp (x : ℚ) : Logic :=
  tempLogic "second sixth" (.weighted (rangeDist (1 / 6) (2 / 6))) x true .greater

/-- `fifthSixthMaxTemp`, src/HPWH.cc:1732-1737. The description is the one in the source. -/
def fifthSixthMaxTemp (x : ℚ) : Logic :=
  tempLogic "top sixth" (.weighted (rangeDist (4 / 6) (5 / 6))) x true .greater

/-- `topSixthMaxTemp`, src/HPWH.cc:1739-1744. -/
def topSixthMaxTemp (x : ℚ) : Logic :=
  tempLogic "top sixth" (.weighted (rangeDist (5 / 6) 1)) x true .greater

/-- `largeDraw`, src/HPWH.cc:1746-1751. -/
def largeDraw (x : ℚ) : Logic := tempLogic "large draw" (.weighted (rangeDist 0 (1 / 4))) x true

/-- `largerDraw`, src/HPWH.cc:1753-1758. -/
def largerDraw (x : ℚ) : Logic := tempLogic "larger draw" (.weighted (rangeDist 0 (1 / 2))) x true

end Logics

/-! ## Numbered twelfths -/

/-- `HPWH::NodeWeight`, src/HPWH.hh:531-539: a twelfth of the tank (1 the lowest, 0 the bottom node) and
its weight. -/
structure NodeWeight where
  nodeNum : ℤ
  weight : ℚ := 1
  deriving DecidableEq

/-- Loop of the constructor from node weights, src/HPWHHeatingLogic.cc:133-162. `run` is the last node
of the current run of equal weights (the inner `while`), `prev` is `prev_height` and `acc` the points
so far. -/
def nodeLoop : (prev : ℚ) → (run : Option NodeWeight) → List NodeWeight → WDist → Dist
  | prev, none, [], acc => .weighted (if prev < 12 then acc ++ [⟨12, 0⟩] else acc)
  | _, some x, [], acc =>
    .weighted (if (x.nodeNum : ℚ) - 1 + 1 < 12
      then acc ++ [⟨(x.nodeNum : ℚ) - 1 + 1, x.weight⟩] ++ [⟨12, 0⟩]
      else acc ++ [⟨(x.nodeNum : ℚ) - 1 + 1, x.weight⟩])
  | prev, none, y :: ys, acc =>
    if y.nodeNum = 0 then .bottom
    else if y.nodeNum = 13 then .weighted []
    else nodeLoop prev (some y) ys
      (if (y.nodeNum : ℚ) - 1 > prev then acc ++ [⟨(y.nodeNum : ℚ) - 1, 0⟩] else acc)
  | prev, some x, y :: ys, acc =>
    if y.weight = x.weight then nodeLoop prev (some y) ys acc
    else if y.nodeNum = 0 then .bottom
    else if y.nodeNum = 13 then .weighted []
    else nodeLoop ((x.nodeNum : ℚ) - 1 + 1) (some y) ys
      (if (y.nodeNum : ℚ) - 1 > (x.nodeNum : ℚ) - 1 + 1
        then acc ++ [⟨(x.nodeNum : ℚ) - 1 + 1, x.weight⟩] ++ [⟨(y.nodeNum : ℚ) - 1, 0⟩]
        else acc ++ [⟨(x.nodeNum : ℚ) - 1 + 1, x.weight⟩])

/-- The part of the tank a logic built from node weights looks at, src/HPWHHeatingLogic.cc:123-163. -/
def nodeWeightDist (ns : List NodeWeight) : Dist := nodeLoop 0 none ns []

end HPWH
