import Verif.Model.Commands

/-! # What a description is to become under the name of a built-in model (C90) -/

namespace HPWH.Spec

/-- Some built-in model of this name has the property. -/
def BuiltIn (name : String) (P : Preset → Prop) : Prop := ∃ p, (name, p) ∈ Presets.table ∧ P p

/-- The temperature of the water entering the condenser shuts a heat source off. -/
def StopsByEnteringWater (p : Preset) : Prop :=
  ∃ i, ∃ l ∈ (p.src i).cfg.shutOff, l.isEnteringWaterHighTempShutoff = true

/-- A large draw shuts a heat source off. -/
def StopsByLargeDraw (p : Preset) : Prop :=
  ∃ i, ∃ l ∈ (p.src i).cfg.shutOff, l.description = "large draw"

instance (p : Preset) : Decidable (StopsByEnteringWater p) := by unfold StopsByEnteringWater; infer_instance

instance (p : Preset) : Decidable (StopsByLargeDraw p) := by unfold StopsByLargeDraw; infer_instance

/-- The name of the heat source that comes first. -/
def namedFirst {k : ℕ} (d : SimInput k) : String :=
  match d.system with
  | .integrated x => x.primary.getD ""
  | .central x => x.primary.getD ""

/-- What is left of the simulator as it was before: besides the settings that are not part of a description, whether the
setpoint is fixed, whether the heater can be scaled, and the control by the state of charge, and the timer. -/
structure LeftOver {n k k₀ : ℕ} (before : Sim n k₀) (after : Sim n k) : Prop where
  minutes : after.cfg.minutesPerStep = before.cfg.minutesPerStep
  maxDepression : after.cfg.maxDepression = before.cfg.maxDepression
  timerLimit : after.cfg.timerLimitTOT = before.cfg.timerLimitTOT
  timer : after.timerTOT = before.timerTOT
  location : after.locationT = before.locationT
  inletT : after.inletT = before.inletT
  socControl : after.socControl = before.socControl
  inlet : after.tank.inletHeight = before.tank.inletHeight
  inlet2 : after.tank.inlet2Height = before.tank.inlet2Height
  inversion : after.tank.doInversionMixing = before.tank.doInversionMixing
  conduction : after.tank.doConduction = before.tank.doConduction

end HPWH.Spec
