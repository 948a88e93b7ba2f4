import Verif.Lemmas.HeatSource
import Verif.Spec.External

/-! Helper lemmas about external heating. -/

namespace HPWH

variable {n k : ℕ}

/-- Temperatures seen by the shift: constant below the outlet, the target above the inlet. -/
def shiftPotential (T : Nodes n ℚ) (o i : Fin (n + 1)) (target : ℚ) (m : ℕ) : ℚ :=
  if m ≤ o.val then T o
  else if h : m ≤ i.val then T ⟨m, by omega⟩ else target

theorem shiftNodes_sub (T : Nodes n ℚ) (o i : Fin (n + 1)) (hoi : o ≤ i) (f target : ℚ)
    (j : Fin (n + 1)) :
    shiftNodes T o i f target j = T j +
      f * (shiftPotential T o i target (j.val + 1) - shiftPotential T o i target j.val) := by
  have hoi' : o.val ≤ i.val := hoi
  have hT : ∀ (m : ℕ) (hm : m < n + 1), m = o.val → T ⟨m, hm⟩ = T o := by
    intro m hm h; congr 1; exact Fin.ext h
  unfold shiftNodes shiftPotential
  by_cases h : o ≤ j ∧ j ≤ i
  · have h1 : o.val ≤ j.val := h.1
    have h2 : j.val ≤ i.val := h.2
    have e1 : ¬ (j.val + 1 ≤ o.val) := by omega
    have hj : (if j.val ≤ o.val then T o
        else if h : j.val ≤ i.val then T ⟨j.val, by omega⟩ else target) = T j := by
      by_cases e2 : j.val ≤ o.val
      · rw [if_pos e2]
        congr 1; exact Fin.ext (by omega)
      · rw [if_neg e2, dif_pos h2]
    rw [hj]
    simp only [h, and_self, dif_pos, e1, if_false]
    by_cases hji : j = i
    · have e3 : ¬ (j.val + 1 ≤ i.val) := by rw [hji]; omega
      simp only [hji] at e3 ⊢
      simp only [e3, dif_pos, dif_neg, not_false_eq_true]
      ring
    · have e3 : j.val + 1 ≤ i.val := by
        have : j.val ≠ i.val := fun hc => hji (Fin.ext hc)
        omega
      simp only [hji, e3, dif_pos, dif_neg, not_false_eq_true]
      ring
  · rw [dif_neg h]
    by_cases h1 : j.val < o.val
    · have e1 : j.val + 1 ≤ o.val := by omega
      have e2 : j.val ≤ o.val := by omega
      simp only [e1, e2, if_true]
      ring
    · have h2 : i.val < j.val := by
        by_contra hc
        exact h ⟨by rw [Fin.le_def]; omega, by rw [Fin.le_def]; omega⟩
      have e1 : ¬ (j.val + 1 ≤ o.val) := by omega
      have e2 : ¬ (j.val ≤ o.val) := by omega
      have e3 : ¬ (j.val + 1 ≤ i.val) := by omega
      have e4 : ¬ (j.val ≤ i.val) := by omega
      simp only [e1, e2, e3, e4, if_false, dif_neg, not_false_eq_true]
      ring

/-- Moving the fraction `f` of a node from the outlet through the heater to the inlet adds
`f * (target - outlet temperature)`. -/
theorem shiftNodes_sum (T : Nodes n ℚ) (o i : Fin (n + 1)) (hoi : o ≤ i) (f target : ℚ) :
    ∑ j, shiftNodes T o i f target j = ∑ j, T j + f * (target - T o) := by
  simp only [shiftNodes_sub T o i hoi f target]
  rw [Finset.sum_add_distrib, ← Finset.mul_sum,
    Fin.sum_univ_eq_sum_range
      (fun m => shiftPotential T o i target (m + 1) - shiftPotential T o i target m) (n + 1),
    Finset.sum_range_sub]
  have hi := i.isLt
  have ho := o.isLt
  have h1 : shiftPotential T o i target (n + 1) = target := by
    unfold shiftPotential
    rw [if_neg (by omega), dif_neg (by omega)]
  have h2 : shiftPotential T o i target 0 = T o := by
    unfold shiftPotential
    rw [if_pos (by omega)]
  rw [h1, h2]

theorem shiftNodes_bounds (T : Nodes n ℚ) (o i : Fin (n + 1)) (f target lo hi : ℚ) (hf0 : 0 ≤ f)
    (hf1 : f ≤ 1) (hT : ∀ j, lo ≤ T j ∧ T j ≤ hi) (ht : lo ≤ target ∧ target ≤ hi)
    (j : Fin (n + 1)) : lo ≤ shiftNodes T o i f target j ∧ shiftNodes T o i f target j ≤ hi := by
  have mix : ∀ x y, lo ≤ x ∧ x ≤ hi → lo ≤ y ∧ y ≤ hi →
      lo ≤ (1 - f) * x + f * y ∧ (1 - f) * x + f * y ≤ hi := by
    intro x y hx hy
    constructor <;> nlinarith
  unfold shiftNodes
  split_ifs with h hj
  · exact mix _ _ (hT _) ht
  · exact mix _ _ (hT _) (hT _)
  · exact hT j

theorem updateSoC_eq {p p' : Plant n} (h : p.updateSoC = .ok p') : p' = { p with soc := p'.soc } := by
  unfold Plant.updateSoC at h
  split at h
  · rw [← Except.ok.inj h]
  · split at h
    · rw [← Except.ok.inj h]
    · exact absurd h (by simp)

theorem Plant.SameSettings.refl (p : Plant n) : p.SameSettings p := ⟨rfl, rfl, rfl, rfl, rfl⟩

theorem Plant.SameSettings.trans {p q r : Plant n} (h1 : p.SameSettings q)
    (h2 : q.SameSettings r) : p.SameSettings r := by
  obtain ⟨a1, a2, a3, a4, a5⟩ := h1
  obtain ⟨b1, b2, b3, b4, b5⟩ := h2
  refine ⟨?_, b2.trans a2, b3.trans a3, b4.trans a4, b5.trans a5⟩
  rw [b1, a1]

theorem Plant.SameSettings.cp {p q : Plant n} (h : p.SameSettings q) :
    q.tank.nodeCp = p.tank.nodeCp := by rw [h.1]

theorem Plant.SameSettings.volume {p q : Plant n} (h : p.SameSettings q) :
    q.tank.volume_L = p.tank.volume_L := by rw [h.1]

/-- What a pass of external heating leaves behind. -/
theorem extFinishPass_spec (s : SourceCfg n k) (c : CondCfg) (p : Plant n) (net perf : Perf)
    (frac target time remaining : ℚ) (a : ExtState n) (hv : p.tank.volume_L ≠ 0)
    (h : extFinishPass s c p net perf frac target time remaining = .ok a) :
    p.SameSettings a.plant ∧ a.remaining = remaining ∧
    a.net.inputPower_W = net.inputPower_W + (perf.inputPower_W + c.extraPumpPower_W) * time ∧
    a.net.outputPower_W = net.outputPower_W + perf.outputPower_W * time ∧
    a.plant.tank.nodeTs = ({ p.tank with
      nodeTs := shiftNodes p.tank.nodeTs s.externalOutlet s.externalInlet frac target } :
        Tank n).mixInversions.nodeTs ∧
    (s.externalOutlet ≤ s.externalInlet → ∑ j, a.plant.tank.nodeTs j =
      ∑ j, p.tank.nodeTs j + frac * (target - p.tank.nodeTs s.externalOutlet)) ∧
    (∀ lo hi : ℚ, 0 ≤ frac → frac ≤ 1 → (∀ j, lo ≤ p.tank.nodeTs j ∧ p.tank.nodeTs j ≤ hi) →
      lo ≤ target ∧ target ≤ hi → ∀ j, lo ≤ a.plant.tank.nodeTs j ∧ a.plant.tank.nodeTs j ≤ hi) := by
  unfold extFinishPass at h
  rw [bind_ok_iff] at h
  obtain ⟨p1, h1, h2⟩ := h
  have h1 := updateSoC_eq h1
  have h2 := (Except.ok.inj h2).symm
  subst h2
  set t0 : Tank n := { p.tank with
      nodeTs := shiftNodes p.tank.nodeTs s.externalOutlet s.externalInlet frac target } with ht0
  have htank : p1.tank = t0.mixInversions := by rw [h1]
  have hsame : p.SameSettings p1 := by
    refine ⟨?_, ?_, ?_, ?_, ?_⟩
    · rw [htank, Tank.mixInversions_eq]
    all_goals rw [h1]
  have hv0 : t0.volume_L ≠ 0 := hv
  refine ⟨hsame, rfl, rfl, rfl, ?_, ?_, ?_⟩
  · change p1.tank.nodeTs = _
    rw [htank]
  · intro hoi
    change ∑ j, p1.tank.nodeTs j = _
    rw [htank, Tank.mixInversions_sum t0 hv0]
    exact shiftNodes_sum _ _ _ hoi _ _
  · intro lo hi hf0 hf1 hT ht j
    change lo ≤ p1.tank.nodeTs j ∧ p1.tank.nodeTs j ≤ hi
    rw [htank]
    exact Tank.mixInversions_bounds t0 hv0 lo hi
      (fun j => shiftNodes_bounds _ _ _ _ _ lo hi hf0 hf1 hT ht j) j

theorem Tank.mixInversions_nodes_monotone (t : Tank n) (h : t.doInversionMixing = true) :
    Monotone t.mixInversions.nodeTs := by
  simp only [Tank.mixInversions, h, if_true]
  exact mixInversionsWith_monotone _ _

/-- A temperature above every lower bound of the nodes is above some node. -/
theorem exists_node_le (T : Nodes n ℚ) (w : ℚ) (h : ∀ lo, (∀ j, lo ≤ T j) → lo ≤ w) :
    ∃ j, T j ≤ w := by
  obtain ⟨j, -, hj⟩ := Finset.exists_min_image Finset.univ T ⟨0, Finset.mem_univ _⟩
  exact ⟨j, h _ fun i => hj i (Finset.mem_univ _)⟩

/-- Invariant of the loops of external heating started from plant `p` with a whole period. -/
structure ExtInv (s : SourceCfg n k) (c : CondCfg) (externalT period : ℚ) (p : Plant n)
    (a : ExtState n) : Prop where
  same : p.SameSettings a.plant
  le : a.remaining ≤ period
  nonneg : 0 ≤ a.remaining
  energy : p.tank.nodeCp * ∑ j, a.plant.tank.nodeTs j =
    p.tank.nodeCp * ∑ j, p.tank.nodeTs j + a.net.outputPower_W / 1000 * 60
  none_out : a.remaining = period → a.net.outputPower_W = 0
  none_in : a.remaining = period → a.net.inputPower_W = 0
  input : ∀ lo hi : ℚ, (∀ w perf, p.MayDraw c w →
      c.getPerformance s.airflowFreedom p.setpoint externalT w = .ok perf → lo ≤ perf.inputPower_W ∧ perf.inputPower_W ≤ hi) →
    (lo + c.extraPumpPower_W) * (period - a.remaining) ≤ a.net.inputPower_W ∧
    a.net.inputPower_W ≤ (hi + c.extraPumpPower_W) * (period - a.remaining)
  output : (∀ lo : ℚ, (∀ w perf, p.MayDraw c w →
      c.getPerformance s.airflowFreedom p.setpoint externalT w = .ok perf → lo ≤ perf.outputPower_W) →
      lo * (period - a.remaining) ≤ a.net.outputPower_W) ∧
    ∀ hi : ℚ, (∀ w perf, p.MayDraw c w →
      c.getPerformance s.airflowFreedom p.setpoint externalT w = .ok perf → perf.outputPower_W ≤ hi) →
      a.net.outputPower_W ≤ hi * (period - a.remaining)
  bounds : c.isMultipass = false → ∀ lo hi : ℚ,
    (∀ j, lo ≤ p.tank.nodeTs j ∧ p.tank.nodeTs j ≤ hi) → min c.maxSetpoint p.setpoint ≤ hi →
    ∀ j, lo ≤ a.plant.tank.nodeTs j ∧ a.plant.tank.nodeTs j ≤ hi
  lower : ∀ lo : ℚ, (∀ j, lo ≤ p.tank.nodeTs j) → ∀ j, lo ≤ a.plant.tank.nodeTs j
  mono : p.tank.doInversionMixing = true → Monotone p.tank.nodeTs → Monotone a.plant.tank.nodeTs

theorem ExtInv.init (s : SourceCfg n k) (c : CondCfg) (externalT period : ℚ) (p : Plant n)
    (hp : 0 ≤ period) : ExtInv s c externalT period p ⟨p, period, ⟨0, 0, 0⟩⟩ :=
  ⟨.refl p, le_rfl, hp, by simp, fun _ => rfl, fun _ => rfl, fun lo hi _ => by simp,
    ⟨fun lo _ => by simp, fun hi _ => by simp⟩, fun _ lo hi h _ => h, fun _ h => h, fun _ h => h⟩

/-- One single pass preserves the invariant. -/
theorem spPass_inv (s : SourceCfg n k) (c : CondCfg) (externalT period : ℚ) (p : Plant n)
    (a a' : ExtState n) (hcp : 0 < p.tank.nodeCp) (hv : p.tank.volume_L ≠ 0)
    (hoi : s.externalOutlet ≤ s.externalInlet)
    (hperf : ∀ w perf, p.MayDraw c w →
      c.getPerformance s.airflowFreedom p.setpoint externalT w = .ok perf → 0 < perf.outputPower_W)
    (hmp : c.isMultipass = false) (hfrac : ∀ f, s.fractToMeet a.plant = .ok f → 0 ≤ f)
    (inv : ExtInv s c externalT period p a) (h : spPass s c externalT a = .ok (some a')) : ExtInv s c externalT period p a' := by
  unfold spPass at h
  rw [bind_ok_iff] at h
  obtain ⟨perf, hpf, h⟩ := h
  dsimp only at h
  have hset : a.plant.setpoint = p.setpoint := inv.same.2.1
  rw [hset] at hpf
  set outletT := a.plant.tank.nodeTs s.externalOutlet with hout
  set target := min c.maxSetpoint a.plant.setpoint with htarget
  by_cases hd : target - outletT ≤ 0
  · rw [if_pos hd] at h
    exact absurd h (by simp [pure, Except.pure])
  rw [if_neg hd, bind_ok_iff] at h
  obtain ⟨toff, hoff, h⟩ := h
  have hoff0 := hfrac _ hoff
  have hd' : 0 < target - outletT := not_le.mp hd
  have hmay : p.MayDraw c outletT :=
    ⟨exists_node_le _ _ fun lo hlo => inv.lower lo hlo _, fun _ => by
      rw [← hset]; exact sub_pos.mp hd'⟩
  have hpos := hperf _ _ hmay hpf
  have hcpa : a.plant.tank.nodeCp = p.tank.nodeCp := inv.same.cp
  have hheat : 0 < a.plant.tank.nodeCp * (target - outletT) := by
    rw [hcpa]; exact mul_pos hcp hd'
  set nodeHeat := a.plant.tank.nodeCp * (target - outletT) with hnh
  have hrem := inv.nonneg
  have hcap : 0 ≤ Units.W_TO_KW perf.outputPower_W * (a.remaining * Units.secPerMin) := by
    unfold Units.W_TO_KW Units.secPerMin; positivity
  set capacity := Units.W_TO_KW perf.outputPower_W * (a.remaining * Units.secPerMin) with hcapdef
  set frac0 := if capacity < nodeHeat then capacity / nodeHeat else 1 with hf0
  set needed0 := if capacity < nodeHeat then capacity else nodeHeat with hn0
  have hfn0 : frac0 * nodeHeat = needed0 := by
    rw [hf0, hn0]; split_ifs
    · field_simp
    · ring
  have hf0pos : 0 ≤ frac0 := by
    rw [hf0]; split_ifs
    · positivity
    · norm_num
  have hf01 : frac0 ≤ 1 := by
    rw [hf0]; split_ifs with hc
    · exact (div_le_one hheat).mpr hc.le
    · exact le_rfl
  have hn0le : needed0 ≤ capacity := by
    rw [hn0]; split_ifs with hc
    · exact le_rfl
    · exact not_lt.mp hc
  set frac := if toff < frac0 then toff else frac0 with hfr
  set needed := if toff < frac0 then toff * nodeHeat else needed0 with hnd
  have hfn : frac * nodeHeat = needed := by
    rw [hfr, hnd]; split_ifs
    · rfl
    · exact hfn0
  have hfrac0 : 0 ≤ frac := by rw [hfr]; split_ifs <;> assumption
  have hfrac1 : frac ≤ 1 := by
    rw [hfr]; split_ifs with hc
    · exact hc.le.trans hf01
    · exact hf01
  have hneeded0 : 0 ≤ needed := by rw [← hfn]; exact mul_nonneg hfrac0 hheat.le
  have hneededle : needed ≤ capacity := by
    rw [← hfn]
    refine le_trans ?_ hn0le
    rw [← hfn0]
    apply mul_le_mul_of_nonneg_right _ hheat.le
    rw [hfr]; split_ifs with hc
    · exact hc.le
    · exact le_rfl
  have hnan : ¬ (capacity > needed ∧ capacity = 0) := fun hc => by linarith [hc.1, hc.2]
  rw [if_neg hnan, bind_ok_iff] at h
  obtain ⟨r, hr, h⟩ := h
  have hra : r = a' := by simpa [pure, Except.pure] using h
  subst hra
  set time := if capacity > needed then a.remaining * (needed / capacity) else a.remaining with htime
  set rem' := if capacity > needed then a.remaining - time else 0 with hrem'
  have hrt : rem' = a.remaining - time := by
    rw [hrem']; split_ifs with hc
    · rfl
    · rw [htime, if_neg hc]; ring
  have ht0 : 0 ≤ time := by
    rw [htime]; split_ifs with hc
    · positivity
    · exact hrem
  have htle : time ≤ a.remaining := by
    rw [htime]; split_ifs with hc
    · have : needed / capacity ≤ 1 := (div_le_one (hneeded0.trans_lt hc)).mpr hneededle
      nlinarith
    · exact le_rfl
  have henergy : perf.outputPower_W / 1000 * 60 * time = needed := by
    rw [htime]; split_ifs with hc
    · have hc0 : capacity ≠ 0 := (hneeded0.trans_lt hc).ne'
      have : perf.outputPower_W / 1000 * 60 * (a.remaining * (needed / capacity)) =
          capacity * (needed / capacity) := by
        rw [hcapdef]
        unfold Units.W_TO_KW Units.secPerMin
        ring
      rw [this]; field_simp
    · have : needed = capacity := le_antisymm hneededle (not_lt.mp hc)
      rw [this, hcapdef]
      unfold Units.W_TO_KW Units.secPerMin
      ring
  obtain ⟨e1, e2, e3, e4, e7, e5, e6⟩ := extFinishPass_spec s c a.plant a.net perf frac target time
    rem' r (by rw [inv.same.volume]; exact hv) hr
  have hle := inv.le
  have hfull : r.remaining = period → a.remaining = period ∧ time = 0 := by
    intro hp
    rw [e2, hrt] at hp
    constructor <;> linarith
  refine ⟨inv.same.trans e1, ?_, ?_, ?_, ?_, ?_, ?_, ?_, ?_, ?_, ?_⟩
  · rw [e2, hrt]; linarith
  · rw [e2, hrt]; linarith
  · rw [e5 hoi, mul_add, inv.energy, e4]
    rw [← hout]
    have : p.tank.nodeCp * (frac * (target - outletT)) = needed := by
      rw [← hfn, hnh, hcpa]; ring
    rw [this, ← henergy]
    ring
  · intro hp
    obtain ⟨h1, h2⟩ := hfull hp
    rw [e4, inv.none_out h1, h2]; ring
  · intro hp
    obtain ⟨h1, h2⟩ := hfull hp
    rw [e3, inv.none_in h1, h2]; ring
  · intro lo hi hb
    obtain ⟨i1, i2⟩ := inv.input lo hi hb
    obtain ⟨b1, b2⟩ := hb _ _ hmay hpf
    rw [e3, e2, hrt]
    have k1 : (lo + c.extraPumpPower_W) * time ≤ (perf.inputPower_W + c.extraPumpPower_W) * time :=
      mul_le_mul_of_nonneg_right (by linarith) ht0
    have k2 : (perf.inputPower_W + c.extraPumpPower_W) * time ≤ (hi + c.extraPumpPower_W) * time :=
      mul_le_mul_of_nonneg_right (by linarith) ht0
    constructor <;> linarith
  · refine ⟨fun lo hb => ?_, fun hi hb => ?_⟩
    · have i1 := inv.output.1 lo hb
      rw [e4, e2, hrt]
      have k1 : lo * time ≤ perf.outputPower_W * time := mul_le_mul_of_nonneg_right (hb _ _ hmay hpf) ht0
      linarith
    · have i1 := inv.output.2 hi hb
      rw [e4, e2, hrt]
      have k1 : perf.outputPower_W * time ≤ hi * time := mul_le_mul_of_nonneg_right (hb _ _ hmay hpf) ht0
      linarith
  · intro _ lo hi hT hm j
    have hb := inv.bounds hmp lo hi hT hm
    have hlo : lo ≤ target := (hb s.externalOutlet).1.trans (sub_pos.mp hd').le
    have hhi : target ≤ hi := by rw [htarget, hset]; exact hm
    exact e6 lo hi hfrac0 hfrac1 hb ⟨hlo, hhi⟩ j
  · intro lo hT j
    have hb := inv.lower lo hT
    have hlo : lo ≤ target := (hb s.externalOutlet).trans (sub_pos.mp hd').le
    exact (e6 lo (max (maxWeight a.plant.tank.nodeTs) target) hfrac0 hfrac1
      (fun j => ⟨hb j, (le_maxWeight _ j).trans (le_max_left _ _)⟩) ⟨hlo, le_max_right _ _⟩ j).1
  · intro hmix _
    rw [e7]
    apply Tank.mixInversions_nodes_monotone
    change a.plant.tank.doInversionMixing = true
    rw [inv.same.1]
    exact hmix

/-- The loop of single-pass heating preserves the invariant. -/
theorem spLoop_inv (s : SourceCfg n k) (c : CondCfg) (externalT period : ℚ) (p : Plant n)
    (hcp : 0 < p.tank.nodeCp) (hv : p.tank.volume_L ≠ 0)
    (hoi : s.externalOutlet ≤ s.externalInlet)
    (hperf : ∀ w perf, p.MayDraw c w →
      c.getPerformance s.airflowFreedom p.setpoint externalT w = .ok perf → 0 < perf.outputPower_W)
    (hmp : c.isMultipass = false)
    (hfrac : ∀ q f, p.SameSettings q → s.shutsOff q = .ok false → s.fractToMeet q = .ok f → 0 ≤ f) :
    ∀ (fuel : ℕ) (a a' : ExtState n), (∀ f, s.fractToMeet a.plant = .ok f → 0 ≤ f) →
      ExtInv s c externalT period p a →
      spLoop s c externalT fuel a = .ok a' → ExtInv s c externalT period p a' := by
  intro fuel
  induction fuel with
  | zero => intro a a' _ _ h; exact absurd h (by simp [spLoop])
  | succ fuel ih =>
    intro a a' hf inv h
    rw [spLoop, bind_ok_iff] at h
    obtain ⟨r, hr, h⟩ := h
    cases r with
    | none =>
      have : a = a' := by simpa [pure, Except.pure] using h
      rw [← this]; exact inv
    | some b =>
      have ib := spPass_inv s c externalT period p a b hcp hv hoi hperf hmp hf inv hr
      simp only at h
      split_ifs at h with hb
      · rw [bind_ok_iff] at h
        obtain ⟨off, hoff, h⟩ := h
        cases off with
        | true =>
          have : b = a' := by simpa [pure, Except.pure] using h
          rw [← this]; exact ib
        | false =>
          simp only [Bool.false_eq_true, if_false] at h
          exact ih b a' (fun f hf' => hfrac b.plant f ib.same hoff hf') ib h
      · have : b = a' := by simpa [pure, Except.pure] using h
        rw [← this]; exact ib

end HPWH
