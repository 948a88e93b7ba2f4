import Verif.Lemmas.Sim
import Verif.Lemmas.External

/-! What running a heat source never changes, whatever the settings. -/

namespace HPWH

variable {n k : ℕ}

theorem heatLoop_frame (offered cap maxW : ℚ) (dist : Nodes n ℚ) : ∀ (i : ℕ) (h : i ≤ n + 1)
    (q : ℚ) (t : Tank n), (heatLoop offered cap maxW dist i h q t).2 =
      { t with nodeTs := (heatLoop offered cap maxW dist i h q t).2.nodeTs } := by
  intro i
  induction i with
  | zero => intro h q t; rfl
  | succ i ih =>
    intro h q t
    rw [heatLoop]
    simp only
    split_ifs
    · rw [ih]; rfl
    · exact ih _ _ _

theorem heat_frame {t : Tank n} {sp : ℚ} {dist : Nodes n ℚ} {q maxT : ℚ} {r : ℚ × Tank n}
    (h : heat t sp dist q maxT = .ok r) : r.2 = { t with nodeTs := r.2.nodeTs } := by
  unfold heat at h
  split_ifs at h
  rw [← Except.ok.inj h]
  exact heatLoop_frame _ _ _ _ _ _ _ _

theorem extFinishPass_frame {s : SourceCfg n k} {c : CondCfg} {p : Plant n} {net perf : Perf}
    {frac target time remaining : ℚ} {a : ExtState n}
    (h : extFinishPass s c p net perf frac target time remaining = .ok a) :
    p.SameSettings a.plant := by
  unfold extFinishPass at h
  simp only at h
  rw [bind_ok_iff] at h
  obtain ⟨p1, h1, h⟩ := h
  rw [← Except.ok.inj h]
  have e := updateSoC_eq h1
  refine ⟨?_, ?_, ?_, ?_, ?_⟩
  · change p1.tank = { p.tank with nodeTs := p1.tank.nodeTs }
    have : p1.tank = ({ p.tank with
      nodeTs := shiftNodes p.tank.nodeTs s.externalOutlet s.externalInlet frac target } :
        Tank n).mixInversions := by rw [e]
    rw [this, Tank.mixInversions_eq]
  all_goals rw [e]

theorem ite_error_ok {α : Type} {c : Prop} [Decidable c] {e : Err} {x : Res α} {b : α}
    (h : (if c then .error e else x) = .ok b) : ¬ c ∧ x = .ok b := by
  by_cases hc : c
  · rw [if_pos hc] at h; cases h
  · rw [if_neg hc] at h; exact ⟨hc, h⟩

theorem spPass_frame {s : SourceCfg n k} {c : CondCfg} {amb : ℚ} {a a' : ExtState n}
    (h : spPass s c amb a = .ok (some a')) : a.plant.SameSettings a'.plant := by
  unfold spPass at h
  simp only at h
  rw [bind_ok_iff] at h
  obtain ⟨perf, -, h⟩ := h
  by_cases h1 : min c.maxSetpoint a.plant.setpoint - a.plant.tank.nodeTs s.externalOutlet ≤ 0
  · rw [if_pos h1] at h; cases h
  · rw [if_neg h1, bind_ok_iff] at h
    obtain ⟨f, -, h⟩ := h
    obtain ⟨-, h⟩ := ite_error_ok h
    rw [bind_ok_iff] at h
    obtain ⟨r, hr, h⟩ := h
    rw [← Option.some.inj (Except.ok.inj h)]
    exact extFinishPass_frame hr

theorem spLoop_frame {s : SourceCfg n k} {c : CondCfg} {amb : ℚ} : ∀ (fuel : ℕ)
    {a a' : ExtState n}, spLoop s c amb fuel a = .ok a' → a.plant.SameSettings a'.plant := by
  intro fuel
  induction fuel with
  | zero => intro a a' h; cases h
  | succ fuel ih =>
    intro a a' h
    rw [spLoop, bind_ok_iff] at h
    obtain ⟨r, hr, h⟩ := h
    split at h
    · rw [← Except.ok.inj h]; exact .refl _
    · have h1 := spPass_frame hr
      split_ifs at h
      · rw [bind_ok_iff] at h
        obtain ⟨off, -, h⟩ := h
        split_ifs at h
        · rw [← Except.ok.inj h]; exact h1
        · exact h1.trans (ih h)
      · rw [← Except.ok.inj h]; exact h1

theorem mpPass_frame {s : SourceCfg n k} {c : CondCfg} {amb : ℚ} {a a' : ExtState n}
    (h : mpPass s c amb a = .ok a') : a.plant.SameSettings a'.plant := by
  unfold mpPass at h
  simp only at h
  rw [bind_ok_iff] at h
  obtain ⟨T, -, h⟩ := h
  rw [bind_ok_iff] at h
  obtain ⟨perf, -, h⟩ := h
  split at h
  · cases h
  · split at h
    · cases h
    · exact Plant.SameSettings.trans
        (q := { a.plant with tank := { a.plant.tank with nodeTs := T } })
        ⟨rfl, rfl, rfl, rfl, rfl⟩ (extFinishPass_frame h)

theorem mpLoop_frame {s : SourceCfg n k} {c : CondCfg} {amb : ℚ} : ∀ (fuel : ℕ)
    {a a' : ExtState n}, mpLoop s c amb fuel a = .ok a' → a.plant.SameSettings a'.plant := by
  intro fuel
  induction fuel with
  | zero => intro a a' h; cases h
  | succ fuel ih =>
    intro a a' h
    rw [mpLoop, bind_ok_iff] at h
    obtain ⟨a1, hr, h⟩ := h
    have h1 := mpPass_frame hr
    split_ifs at h
    · rw [bind_ok_iff] at h
      obtain ⟨off, -, h⟩ := h
      split_ifs at h
      · rw [← Except.ok.inj h]; exact h1
      · exact h1.trans (ih h)
    · rw [← Except.ok.inj h]; exact h1

theorem addHeatKind_frame {m : Libm} {fuel : ℕ} {s : SourceCfg n k} {p p' : Plant n}
    {st st' : SourceState} {amb minutes : ℚ}
    (h : Sim.addHeatKind m fuel s p st amb minutes = .ok (p', st')) :
    p.SameSettings p' ∧ st'.isOn = st.isOn ∧ st'.lockedOut = st.lockedOut := by
  unfold Sim.addHeatKind at h
  split at h
  · rename_i c hk
    unfold condenserAddHeat at h
    split at h
    · unfold externalAddHeat addHeatExternal at h
      rw [bind_ok_iff] at h
      obtain ⟨r, hr, h⟩ := h
      obtain ⟨e1, e2⟩ := Prod.mk.inj (Except.ok.inj h)
      subst e1 e2
      refine ⟨?_, rfl, rfl⟩
      have key : ∀ a : ExtState n, p.SameSettings a.plant → r = extFinish minutes a →
          p.SameSettings r.2.1 := by
        intro a h1 e
        rw [e]
        unfold extFinish
        simp only
        split_ifs
        · exact h1
        · exact h1
      split_ifs at hr
      · rw [bind_ok_iff] at hr
        obtain ⟨a, ha, hr⟩ := hr
        have := mpLoop_frame fuel ha
        exact key a this (Except.ok.inj hr).symm
      · rw [bind_ok_iff] at hr
        obtain ⟨a, ha, hr⟩ := hr
        have := spLoop_frame fuel ha
        exact key a this (Except.ok.inj hr).symm
    · unfold internalAddHeat at h
      rw [bind_ok_iff] at h
      obtain ⟨w, -, h⟩ := h
      rw [bind_ok_iff] at h
      obtain ⟨perf, -, h⟩ := h
      dsimp only at h
      rw [bind_ok_iff] at h
      obtain ⟨d, -, h⟩ := h
      rw [bind_ok_iff] at h
      obtain ⟨q, hq, h⟩ := h
      split at h
      · cases h
      · split at h
        · cases h
        · rw [bind_ok_iff] at h
          obtain ⟨o, -, h⟩ := h
          obtain ⟨e1, e2⟩ := Prod.mk.inj (Except.ok.inj h)
          subst e1 e2
          exact ⟨⟨heat_frame hq, rfl, rfl, rfl, rfl⟩, rfl, rfl⟩
  · unfold resistanceAddHeat at h
    rw [bind_ok_iff] at h
    obtain ⟨d, -, h⟩ := h
    dsimp only at h
    rw [bind_ok_iff] at h
    obtain ⟨q, hq, h⟩ := h
    split at h
    · cases h
    · split at h
      · cases h
      · obtain ⟨e1, e2⟩ := Prod.mk.inj (Except.ok.inj h)
        subst e1 e2
        exact ⟨⟨heat_frame hq, rfl, rfl, rfl, rfl⟩, rfl, rfl⟩

end HPWH
