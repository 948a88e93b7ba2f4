import Mathlib.Data.Rat.Defs
import Mathlib.Algebra.Order.Ring.Rat
import Mathlib.Algebra.Order.Field.Rat

/-! # Unit conversions (src/HPWH.hh:1595-1665)

The decimal literals of the source are taken as exact rationals. -/

namespace HPWH.Units

/-- src/HPWH.hh:1595-1596. -/
def BTUperKWH : ℚ := 341214163312794 / 100000000000
/-- src/HPWH.hh:1597. -/
def FperC : ℚ := 9 / 5
/-- src/HPWH.hh:1598. -/
def offsetF : ℚ := 32
/-- src/HPWH.hh:1599. -/
def absoluteZeroC : ℚ := -27315 / 100
/-- src/HPWH.hh:1600. -/
def secPerMin : ℚ := 60
/-- src/HPWH.hh:1601. -/
def minPerHr : ℚ := 60
/-- src/HPWH.hh:1602. -/
def secPerHr : ℚ := secPerMin * minPerHr
/-- src/HPWH.hh:1603. -/
def LPerGal : ℚ := 378541 / 100000
/-- src/HPWH.hh:1604. -/
def ftPerM : ℚ := 32808 / 10000

/-- src/HPWH.hh:1610. -/
def dF_TO_dC (x : ℚ) : ℚ := x / FperC
/-- src/HPWH.hh:1611. -/
def dC_TO_dF (x : ℚ) : ℚ := FperC * x
/-- src/HPWH.hh:1612. -/
def F_TO_C (x : ℚ) : ℚ := (x - offsetF) / FperC
/-- src/HPWH.hh:1613. -/
def C_TO_F (x : ℚ) : ℚ := FperC * x + offsetF
/-- src/HPWH.hh:1614. -/
def K_TO_C (x : ℚ) : ℚ := x + absoluteZeroC
/-- src/HPWH.hh:1615. -/
def C_TO_K (x : ℚ) : ℚ := x - absoluteZeroC
/-- src/HPWH.hh:1616. -/
def K_TO_F (x : ℚ) : ℚ := C_TO_F (K_TO_C x)
/-- src/HPWH.hh:1617. -/
def F_TO_K (x : ℚ) : ℚ := C_TO_K (F_TO_C x)
/-- src/HPWH.hh:1618. -/
def KWH_TO_BTU (x : ℚ) : ℚ := BTUperKWH * x
/-- src/HPWH.hh:1619. -/
def KWH_TO_KJ (x : ℚ) : ℚ := x * secPerHr
/-- src/HPWH.hh:1620. -/
def BTU_TO_KWH (x : ℚ) : ℚ := x / BTUperKWH
/-- src/HPWH.hh:1621. -/
def BTUperH_TO_KW (x : ℚ) : ℚ := x / BTUperKWH
/-- src/HPWH.hh:1622. -/
def BTUperH_TO_W (x : ℚ) : ℚ := 1000 * x / BTUperKWH
/-- src/HPWH.hh:1623. -/
def KW_TO_W (x : ℚ) : ℚ := 1000 * x
/-- src/HPWH.hh:1624. -/
def W_TO_KW (x : ℚ) : ℚ := x / 1000
/-- src/HPWH.hh:1625. -/
def KW_TO_BTUperH (x : ℚ) : ℚ := x * BTUperKWH
/-- src/HPWH.hh:1626. -/
def W_TO_BTUperH (x : ℚ) : ℚ := x * BTUperKWH / 1000
/-- src/HPWH.hh:1627. -/
def KJ_TO_KWH (x : ℚ) : ℚ := x / secPerHr
/-- src/HPWH.hh:1628. -/
def BTU_TO_KJ (x : ℚ) : ℚ := x * secPerHr / BTUperKWH
/-- src/HPWH.hh:1629. -/
def GAL_TO_L (x : ℚ) : ℚ := x * LPerGal
/-- src/HPWH.hh:1630. -/
def L_TO_GAL (x : ℚ) : ℚ := x / LPerGal
/-- src/HPWH.hh:1631. -/
def L_TO_FT3 (x : ℚ) : ℚ := x / (2831685 / 100000)
/-- src/HPWH.hh:1632. -/
def UAf_TO_UAc (x : ℚ) : ℚ := x * (18 / 10) / (9478 / 10000)
/-- src/HPWH.hh:1633. -/
def GPM_TO_LPS (x : ℚ) : ℚ := x * LPerGal / secPerMin
/-- src/HPWH.hh:1634. -/
def LPS_TO_GPM (x : ℚ) : ℚ := x * secPerMin / LPerGal
/-- src/HPWH.hh:1636. -/
def FT_TO_M (x : ℚ) : ℚ := x / ftPerM
/-- src/HPWH.hh:1637. -/
def FT2_TO_M2 (x : ℚ) : ℚ := FT_TO_M (FT_TO_M x)
/-- src/HPWH.hh:1639. -/
def M_TO_FT (x : ℚ) : ℚ := ftPerM * x
/-- src/HPWH.hh:1640. -/
def M2_TO_FT2 (x : ℚ) : ℚ := M_TO_FT (M_TO_FT x)
/-- src/HPWH.hh:1642. -/
def MIN_TO_SEC (x : ℚ) : ℚ := x * secPerMin
/-- src/HPWH.hh:1643. -/
def MIN_TO_HR (x : ℚ) : ℚ := x / minPerHr
/-- src/HPWH.hh:1645-1648. -/
def HM_TO_MIN (hours minutes : ℚ) : ℚ := minPerHr * hours + minutes

end HPWH.Units
