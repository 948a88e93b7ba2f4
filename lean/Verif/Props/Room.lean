import Verif.Props.TopOff

/-! # C37: room-temperature depression -/

namespace HPWH

variable {n k : ℕ}

/-- **C37** (one step). With temperature depression, the room temperature moves 7.11 % of the way to
its goal in a step of one minute: the ambient temperature, less the maximum depression if a heat
source that cools the room is on. Without, it is left alone. -/
theorem C37_room_temperature_step (m : Libm) (fuel : ℕ) (s s' : Sim n k) (u : Sim.StepInput)
    (h : Sim.runOneStep m fuel s u = .ok s') :
    s'.locationT =
      if s.cfg.doTempDepression then
        let goal := if s'.CoolsRoom then u.tankAmbient - s.cfg.maxDepression else u.tankAmbient
        goal + 9289 / 10000 * (s.roomT u - goal)
      else s.locationT := by
  obtain ⟨-, s0, s1, s2, hs, h1, h2, rfl⟩ := runOneStep_ok h
  have inv := control_frame h1
  obtain ⟨a1, -, -, a4, -⟩ := extraStep_frame h2
  have hc : s2.cfg = s.cfg := by rw [a1, inv.cfg, hs.cfg]
  have hl : s2.locationT = if s.cfg.doTempDepression then s.roomT u else s.locationT := by
    rw [a4, inv.rest]
    exact hs.locationT
  obtain ⟨-, g2, -, -, -, g5, -, -⟩ := finish_facts s2 u.tankAmbient u.dr
  set s' := ((s2.trackLocation u.tankAmbient).settleOutputs).updateTimer u.dr with hs'
  have e : s'.locationT = (s2.trackLocation u.tankAmbient).locationT := rfl
  have hcool : s'.CoolsRoom ↔ s2.CoolsRoom := by
    unfold Sim.CoolsRoom
    simp only [(g5 _).2.2.1, (g5 _).2.2.2, g2]
  rw [e]
  unfold Sim.trackLocation
  rw [hc]
  by_cases hd : s.cfg.doTempDepression = true
  · simp only [hd, ↓reduceIte, decide_eq_true_eq]
    rw [hl, if_pos hd]
    by_cases hr : s2.CoolsRoom
    · rw [if_pos (hcool.mpr hr), if_pos (by unfold Sim.CoolsRoom at hr; rw [hc] at hr; exact hr)]
      ring
    · rw [if_neg (fun hh => hr (hcool.mp hh)),
        if_neg (by unfold Sim.CoolsRoom at hr; rw [hc] at hr; exact hr)]
      ring
  · rw [if_neg hd, if_neg hd, hl, if_neg hd]

/-- **C37** (bounds). At constant ambient temperature the room temperature stays between ambient less
the maximum depression and ambient, if it starts there or is not yet known. -/
theorem C37_room_temperature_bounded (m : Libm) (fuel N : ℕ) (s : ℕ → Sim n k)
    (u : ℕ → Sim.StepInput) (h : Sim.History m fuel N s u) (amb : ℚ)
    (hamb : ∀ t < N, (u t).tankAmbient = amb) (hdep : (s 0).cfg.doTempDepression = true)
    (hmax : 0 ≤ (s 0).cfg.maxDepression)
    (h0 : (s 0).locationT = Sim.uninitialisedLocation ∨
      (amb - (s 0).cfg.maxDepression ≤ (s 0).locationT ∧ (s 0).locationT ≤ amb)) :
    ∀ t ≤ N, 0 < t →
      amb - (s 0).cfg.maxDepression ≤ (s t).locationT ∧ (s t).locationT ≤ amb := by
  have key : ∀ t ≤ N, (s t).locationT = Sim.uninitialisedLocation ∧ t = 0 ∨
      (amb - (s 0).cfg.maxDepression ≤ (s t).locationT ∧ (s t).locationT ≤ amb) := by
    intro t
    induction t with
    | zero => intro _; rcases h0 with h0 | h0; exacts [.inl ⟨h0, rfl⟩, .inr h0]
    | succ t ih =>
      intro ht
      refine .inr ?_
      have e := C37_room_temperature_step m fuel _ _ _ (h t (by omega))
      have hc := history_cfg h t (by omega)
      have hroom : amb - (s 0).cfg.maxDepression ≤ (s t).roomT (u t) ∧
          (s t).roomT (u t) ≤ amb := by
        unfold Sim.roomT
        rw [hamb t (by omega)]
        split_ifs with hu
        · exact ⟨by linarith, le_rfl⟩
        · rcases ih (by omega) with ih | ih
          · exact absurd ih.1 hu
          · exact ih
      rw [hc, if_pos hdep, hamb t (by omega)] at e
      simp only at e
      rw [e]
      split_ifs
      · exact ⟨by linarith [hroom.1], by linarith [hroom.2]⟩
      · exact ⟨by linarith [hroom.1], by linarith [hroom.2]⟩
  intro t ht hpos
  rcases key t ht with ⟨-, rfl⟩ | hh
  · omega
  · exact hh

/-- **C37** (approach). While a heat source cools the room at every step, the distance of the room
temperature from ambient less the maximum depression shrinks by the factor 0.9289 per step; while none
does, that from ambient does. (The room must not be at −500 °C, which means unknown.) -/
theorem C37_room_temperature_approach (m : Libm) (fuel N : ℕ) (s : ℕ → Sim n k)
    (u : ℕ → Sim.StepInput) (h : Sim.History m fuel N s u) (amb : ℚ)
    (hamb : ∀ t < N, (u t).tankAmbient = amb) (hdep : (s 0).cfg.doTempDepression = true)
    (hmax : 0 ≤ (s 0).cfg.maxDepression) (hlow : -500 < amb - (s 0).cfg.maxDepression)
    (h0 : amb - (s 0).cfg.maxDepression ≤ (s 0).locationT ∧ (s 0).locationT ≤ amb) :
    ((∀ t < N, (s (t + 1)).CoolsRoom) → ∀ t ≤ N,
      (s t).locationT - (amb - (s 0).cfg.maxDepression) =
        (9289 / 10000) ^ t * ((s 0).locationT - (amb - (s 0).cfg.maxDepression))) ∧
    ((∀ t < N, ¬ (s (t + 1)).CoolsRoom) → ∀ t ≤ N,
      amb - (s t).locationT = (9289 / 10000) ^ t * (amb - (s 0).locationT)) := by
  have hb : ∀ t ≤ N, amb - (s 0).cfg.maxDepression ≤ (s t).locationT := by
    intro t ht
    rcases Nat.eq_zero_or_pos t with rfl | hp
    · exact h0.1
    · exact (C37_room_temperature_bounded m fuel N s u h amb hamb hdep hmax (.inr h0) t ht hp).1
  have hstep : ∀ t < N, (s (t + 1)).locationT =
      (if (s (t + 1)).CoolsRoom then amb - (s 0).cfg.maxDepression else amb) + 9289 / 10000 *
        ((s t).locationT - if (s (t + 1)).CoolsRoom then amb - (s 0).cfg.maxDepression else amb) := by
    intro t ht
    have e := C37_room_temperature_step m fuel _ _ _ (h t ht)
    rw [history_cfg h t (by omega), if_pos hdep, hamb t ht] at e
    have hu : (s t).roomT (u t) = (s t).locationT := by
      unfold Sim.roomT
      rw [if_neg]
      have := hb t (by omega)
      unfold Sim.uninitialisedLocation
      linarith
    rw [hu] at e
    exact e
  constructor
  · intro hc t
    induction t with
    | zero => intro _; simp
    | succ t ih =>
      intro ht
      rw [hstep t (by omega), if_pos (hc t (by omega)), pow_succ]
      linear_combination (9289 / 10000) * ih (by omega)
  · intro hc t
    induction t with
    | zero => intro _; simp
    | succ t ih =>
      intro ht
      rw [hstep t (by omega), if_neg (hc t (by omega)), pow_succ]
      linear_combination (9289 / 10000) * ih (by omega)

/-- The sample system in a room it cools by up to 3 °C. -/
def coolingSim : Sim 3 2 :=
  { sampleSim with
    locationT := 20
    cfg := { sampleSim.cfg with
      doTempDepression := true
      src := ![{ sampleControlled with depressesTemperature := true }, sampleElement] } }

/-- The hypotheses are met by a history of one step in which the room cools. -/
example : ∃ s', Sim.runOneStep sampleLibm 5 coolingSim sampleInput = .ok s' ∧ s'.CoolsRoom ∧
    17 ≤ s'.locationT ∧ s'.locationT < 20 := by
  decide +kernel

end HPWH
