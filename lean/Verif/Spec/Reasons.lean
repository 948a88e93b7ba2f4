import Verif.Props.Control
import Verif.Spec.Step

/-! # Why a heat source may be on (C91) -/

namespace HPWH.Spec

variable {n k : ℕ}

/-- The tank and its state of charge after the draw, the standby losses and conduction of a step, before any
heating. The control logics look at this state. -/
def AfterDraw (s : Sim n k) (u : Sim.StepInput) (p : Plant n) : Prop :=
  ∃ t, s.DrawnTank u t ∧ ({ s.resetOutputs.toPlant with tank := t } : Plant n).updateSoC = .ok p

/-- Heat source `i` asks for heat: one of its turn-on logics does, and neither its shut-off logics nor a tank
that is hot at the bottom forbid it. -/
def Calls (s : Sim n k) (p : Plant n) (i : Fin k) : Prop :=
  (∃ l ∈ (s.cfg.src i).turnOn, AsksForHeat (s.cfg.src i) p l) ∧ ¬ ToldToShutOff (s.cfg.src i) p

/-- A top-off signal is given and the timer permits it. -/
def ToppingOff (s : Sim n k) (dr : DR) : Prop := (dr.too = true ∨ dr.tot = true) ∧ s.timerTOT = 0

/-- The reasons for which heat source `i` may be on or run in a step that begins in state `s`, with demand
response `dr` and the water in state `p` after the draw. -/
inductive HasReason (s : Sim n k) (dr : DR) (p : Plant n) : Fin k → Prop
  /-- It was on. -/
  | wasOn (i : Fin k) : (s.st i).isOn = true → HasReason s dr p i
  /-- The heater was not heating, and it is the first heat source in order that asks for heat. -/
  | firstCaller (i : Fin k) : s.isHeating = false → Calls s p i → (∀ j < i, ¬ Calls s p j) → HasReason s dr p i
  /-- It has priority and asks for heat. -/
  | priority (i : Fin k) : (s.cfg.src i).isVIP = true → Calls s p i → HasReason s dr p i
  /-- It is the compressor, in place of a heat source with priority that asks for heat but is locked out by demand
  response. -/
  | standIn (i v : Fin k) : (s.cfg.src v).isVIP = true → Calls s p v →
      shouldDRLockOut (s.cfg.src v).kind dr = true → s.cfg.compressorIndex = some i → HasReason s dr p i
  /-- It is the compressor or the lowest element, and the tank is to be topped off. -/
  | toppingOff (i : Fin k) : ToppingOff s dr →
      s.cfg.compressorIndex = some i ∨ s.cfg.lowestElementIndex = some i → HasReason s dr p i
  /-- It is the companion of a heat source with a reason. -/
  | companion (i j : Fin k) : HasReason s dr p j → (s.cfg.src j).companion = some i → HasReason s dr p i
  /-- It is the backup of a heat source with a reason. -/
  | backup (i j : Fin k) : HasReason s dr p j → (s.cfg.src j).backup = some i → HasReason s dr p i
  /-- It follows a heat source with a reason. -/
  | follower (i j : Fin k) : HasReason s dr p j → (s.cfg.src j).followedBy = some i → HasReason s dr p i

end HPWH.Spec
