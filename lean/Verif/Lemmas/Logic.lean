import Verif.Lemmas.External

/-! Helper lemmas about heating logics. -/

namespace HPWH

variable {n k : ℕ}

theorem Logic.Usable.congr {l : Logic} {p q : Plant n} (h : l.Usable p) (hs : p.SameSettings q) :
    l.Usable q := by
  unfold Logic.Usable at *
  split at h <;> simp_all [hs.2.2.2.1]

theorem Plant.SoCUsable.congr {p q : Plant n} (h : p.SoCUsable) (hs : p.SameSettings q) :
    q.SoCUsable := by
  intro c hc
  rw [hs.2.2.2.2] at hc
  have := h c hc
  unfold Plant.mainsT at *
  rw [hs.2.2.1, hs.2.1]
  exact this

theorem averageDist_ok (T : Nodes n ℚ) (dist : Dist)
    (h : ∀ d, dist = .weighted d → d.Proper) : ∃ v, Plant.averageDist T dist = .ok v := by
  cases dist with
  | bottom => exact ⟨_, rfl⟩
  | top => exact ⟨_, rfl⟩
  | weighted d => exact ⟨_, WDist.averageT_eq (Nat.succ_pos n) (h d rfl) T⟩

theorem Logic.Usable.tankValue {l : Logic} {p : Plant n} (h : l.Usable p) :
    ∃ v, l.tankValue p = .ok v := by
  unfold Logic.Usable at h
  unfold Logic.tankValue
  split at h
  · rename_i a d hk
    rw [hk]
    exact averageDist_ok _ _ (fun d' hd' => by cases hd'; exact h)
  · rename_i a d hne hk
    rw [hk]
    exact averageDist_ok _ _ (fun d' hd' => (hne d' hd').elim)
  · rename_i a b c d hk
    rw [hk]
    refine ⟨p.soc, ?_⟩
    simp only
    rw [if_neg]
    rintro ⟨h1, h2⟩
    rcases h with h | h <;> simp_all

theorem Logic.Usable.holds {l : Logic} {p : Plant n} (h : l.Usable p) :
    ∃ b, l.holds p = .ok b := by
  obtain ⟨v, hv⟩ := h.tankValue
  unfold Logic.holds
  rw [hv]
  exact ⟨_, rfl⟩

theorem anyHolds_ok (p : Plant n) (ls : List Logic) (h : ∀ l ∈ ls, l.Usable p) :
    ∃ b, anyHolds p ls = .ok b := by
  induction ls with
  | nil => exact ⟨_, rfl⟩
  | cons l ls ih =>
    obtain ⟨b, hb⟩ := (h l (by simp)).holds
    obtain ⟨r, hr⟩ := ih fun l hl => h l (by simp [hl])
    refine ⟨b || r, ?_⟩
    simp [anyHolds, hb, hr, bind, Except.bind, pure, Except.pure]

/-- `anyHolds` decides whether some logic holds. -/
theorem anyHolds_iff (p : Plant n) (ls : List Logic) (b : Bool) (h : anyHolds p ls = .ok b) :
    b = true ↔ ∃ l ∈ ls, l.holds p = .ok true := by
  induction ls generalizing b with
  | nil =>
    have : false = b := Except.ok.inj h
    simp [← this]
  | cons l ls ih =>
    rw [anyHolds, bind_ok_iff] at h
    obtain ⟨b1, h1, h⟩ := h
    rw [bind_ok_iff] at h
    obtain ⟨b2, h2, h⟩ := h
    have hb : (b1 || b2) = b := Except.ok.inj h
    have := ih b2 h2
    simp only [List.mem_cons, exists_eq_or_imp, h1, ← this, ← hb, Bool.or_eq_true]
    simp

theorem shutsOff_ok (s : SourceCfg n k) (p : Plant n) (h : ∀ l ∈ s.shutOff, l.Usable p) :
    ∃ b, s.shutsOff p = .ok b := by
  unfold SourceCfg.shutsOff
  split_ifs
  · exact ⟨_, rfl⟩
  · exact anyHolds_ok p _ h

theorem updateSoC_ok (p : Plant n) (h : p.SoCUsable) : ∃ p', p.updateSoC = .ok p' := by
  unfold Plant.updateSoC
  cases hc : p.socControl with
  | none => exact ⟨_, rfl⟩
  | some c =>
    obtain ⟨h1, h2⟩ := h c hc
    simp only
    have h3 : c.tempMinUseful - p.mainsT c.useConstantMains c.constantMains ≠ 0 := by
      intro h0; linarith
    have h4 : (p.setpoint - p.mainsT c.useConstantMains c.constantMains) /
        (c.tempMinUseful - p.mainsT c.useConstantMains c.constantMains) ≠ 0 := by
      apply div_ne_zero _ h3
      intro h0; linarith
    have : chargePerNode (p.mainsT c.useConstantMains c.constantMains) c.tempMinUseful p.setpoint =
        .ok ((p.setpoint - p.mainsT c.useConstantMains c.constantMains) /
          (c.tempMinUseful - p.mainsT c.useConstantMains c.constantMains)) := by
      unfold chargePerNode
      rw [if_neg (not_lt.mpr h2), if_neg h3]
    unfold calcSoCFraction
    rw [this]
    simp only [h3, h4, or_self, if_false]
    exact ⟨_, rfl⟩

/-! ## Fraction of a node to move -/

/-- What the node loop of the fraction calculation finds. -/
theorem fractLoop_spec (d : WDist) (hd : d.Proper) (T : Nodes n ℚ) :
    ∀ (room i : ℕ) (h : i + room = n + 1) (first : Option (Fin (n + 1))) (last : Fin (n + 1))
      (sum tot : ℚ),
      (first = none → ∀ j : Fin (n + 1), j.val < i → d.share (n + 1) j = 0) →
      (∀ f, first = some f → 0 < d.share (n + 1) f ∧ (∀ j : Fin (n + 1), j < f →
        d.share (n + 1) j = 0) ∧ 0 < d.share (n + 1) last ∧ f ≤ last ∧
        ∀ j : Fin (n + 1), last < j → j.val < i → d.share (n + 1) j = 0) →
      sum = (∑ j : Fin (n + 1), if j.val < i then d.share (n + 1) j * T j else 0) →
      tot = (∑ j : Fin (n + 1), if j.val < i then d.share (n + 1) j else 0) →
      ∃ f l, Logic.fractLoop d T i room h first last sum tot =
          .ok (some f, l, ∑ j : Fin (n + 1), d.share (n + 1) j * T j, 1) ∧
        0 < d.share (n + 1) f ∧ (∀ j : Fin (n + 1), j < f → d.share (n + 1) j = 0) ∧
        0 < d.share (n + 1) l ∧ f ≤ l ∧ ∀ j : Fin (n + 1), l < j → d.share (n + 1) j = 0 := by
  intro room
  induction room with
  | zero =>
    intro i h first last sum tot hnone hsome hsum htot
    have hi : i = n + 1 := by omega
    subst hi
    have e1 : sum = ∑ j : Fin (n + 1), d.share (n + 1) j * T j := by
      rw [hsum]; exact Finset.sum_congr rfl fun j _ => if_pos j.isLt
    have e2 : tot = 1 := by
      rw [htot, ← WDist.sum_share hd (Nat.succ_pos n)]
      exact Finset.sum_congr rfl fun j _ => if_pos j.isLt
    cases first with
    | none =>
      exfalso
      have : ∑ j : Fin (n + 1), d.share (n + 1) j = 0 :=
        Finset.sum_eq_zero fun j _ => hnone rfl j j.isLt
      rw [WDist.sum_share hd (Nat.succ_pos n)] at this
      norm_num at this
    | some f =>
      obtain ⟨h1, h2, h3, h4, h5⟩ := hsome f rfl
      exact ⟨f, last, by rw [Logic.fractLoop, e1, e2], h1, h2, h3, h4, fun j hj => h5 j hj j.isLt⟩
  | succ room ih =>
    intro i h first last sum tot hnone hsome hsum htot
    have hi : i < n + 1 := by omega
    have hw : d.normalizedWeight ((i : ℚ) / ((n : ℚ) + 1))
        ((i : ℚ) / ((n : ℚ) + 1) + 1 / ((n : ℚ) + 1)) = .ok (d.share (n + 1) i) := by
      have := WDist.nodeShare_eq hd (n + 1) i
      unfold WDist.nodeShare at this
      rw [← this]
      congr 1
      · push_cast; rfl
      · push_cast; ring
    rw [Logic.fractLoop, hw]
    simp only
    have hs0 := WDist.share_nonneg hd (n + 1) i
    have stepS : sum + d.share (n + 1) i * T ⟨i, hi⟩ =
        ∑ j : Fin (n + 1), if j.val < i + 1 then d.share (n + 1) j * T j else 0 := by
      have := sum_below_succ (fun j : Fin (n + 1) => d.share (n + 1) j * T j) i hi
      rw [this, hsum]; ring
    have stepT : tot + d.share (n + 1) i =
        ∑ j : Fin (n + 1), if j.val < i + 1 then d.share (n + 1) j else 0 := by
      have := sum_below_succ (fun j : Fin (n + 1) => d.share (n + 1) j) i hi
      rw [this, htot]; ring
    split_ifs with hpos hfirst
    · apply ih
      · intro hc; exact absurd hc (by simp)
      · intro f hf
        have hf : (⟨i, hi⟩ : Fin (n + 1)) = f := by simpa using hf
        subst hf
        refine ⟨hpos, fun j hj => hnone hfirst j hj, hpos, le_rfl, fun j hj hji => ?_⟩
        exfalso
        have : i < j.val := hj
        omega
      · exact stepS
      · exact stepT
    · apply ih
      · intro hc; exact absurd hc hfirst
      · intro f hf
        obtain ⟨h1, h2, h3, h4, h5⟩ := hsome f hf
        refine ⟨h1, h2, hpos, ?_, fun j hj hji => ?_⟩
        · by_contra hc
          have hlt : (⟨i, hi⟩ : Fin (n + 1)) < f := not_le.mp hc
          exact hpos.ne' (h2 _ hlt)
        · exfalso
          have : i < j.val := hj
          omega
      · exact stepS
      · exact stepT
    · have hz : d.share (n + 1) i = 0 := le_antisymm (not_lt.mp hpos) hs0
      apply ih
      · intro hc j hj
        by_cases hji : j.val < i
        · exact hnone hc j hji
        · have : j.val = i := by omega
          rw [this]; exact hz
      · intro f hf
        obtain ⟨h1, h2, h3, h4, h5⟩ := hsome f hf
        refine ⟨h1, h2, h3, h4, fun j hj hji => ?_⟩
        by_cases hji' : j.val < i
        · exact h5 j hj hji'
        · have : j.val = i := by omega
          rw [this]; exact hz
      · rw [← stepS, hz]; ring
      · rw [← stepT, hz]; ring

theorem averageT_share (d : WDist) (hd : d.Proper) (T : Nodes n ℚ) :
    d.averageT T = .ok (∑ j : Fin (n + 1), d.share (n + 1) j * T j) := by
  rw [WDist.averageT_eq (Nat.succ_pos n) hd T]
  congr 1
  unfold WDist.share
  rw [Finset.sum_div]
  exact Finset.sum_congr rfl fun j _ => by ring

theorem fractNodes_spec (T : Nodes n ℚ) (dist : Dist)
    (h : ∀ d, dist = .weighted d → d.Proper) :
    ∃ f l v, Logic.fractNodes T dist = .ok (f, l, v) ∧ Plant.averageDist T dist = .ok v ∧ f ≤ l ∧
      (Monotone T → T f ≤ v ∧ v ≤ T l) := by
  cases dist with
  | bottom => exact ⟨0, 0, _, rfl, rfl, le_rfl, fun _ => ⟨le_rfl, le_rfl⟩⟩
  | top => exact ⟨Fin.last n, Fin.last n, _, rfl, rfl, le_rfl, fun _ => ⟨le_rfl, le_rfl⟩⟩
  | weighted d =>
    have hd := h d rfl
    obtain ⟨f, l, h1, h2, h3, h4, h5, h6⟩ := fractLoop_spec d hd T (n + 1) 0 (by omega) none 0 0 0
      (fun _ j hj => absurd hj (by omega)) (fun f hf => absurd hf (by simp)) (by simp) (by simp)
    refine ⟨f, l, ∑ j : Fin (n + 1), d.share (n + 1) j * T j, ?_, averageT_share d hd T, h5, ?_⟩
    · unfold Logic.fractNodes
      simp only [h1]
      norm_num
    · intro hm
      have hsum := WDist.sum_share hd (Nat.succ_pos n)
      constructor
      · have : ∑ j : Fin (n + 1), d.share (n + 1) j * T f ≤
            ∑ j : Fin (n + 1), d.share (n + 1) j * T j := by
          apply Finset.sum_le_sum
          intro j _
          by_cases hj : j < f
          · rw [h3 j hj]; simp
          · exact mul_le_mul_of_nonneg_left (hm (not_lt.mp hj)) (WDist.share_nonneg hd _ _)
        rw [← Finset.sum_mul, hsum, one_mul] at this
        exact this
      · have : ∑ j : Fin (n + 1), d.share (n + 1) j * T j ≤
            ∑ j : Fin (n + 1), d.share (n + 1) j * T l := by
          apply Finset.sum_le_sum
          intro j _
          by_cases hj : l < j
          · rw [h6 j hj]; simp
          · exact mul_le_mul_of_nonneg_left (hm (not_lt.mp hj)) (WDist.share_nonneg hd _ _)
        rw [← Finset.sum_mul, hsum, one_mul] at this
        exact this

theorem UpperLimit.fract_nonneg {l : Logic} (hu : l.UpperLimit) (p : Plant n) {f : ℚ}
    (h : l.fractToMeet p = .ok f) : 0 ≤ f := by
  obtain ⟨hcmp, a, d, hk⟩ := hu
  unfold Logic.fractToMeet at h
  rw [hk] at h
  simp only [Logic.tempFract] at h
  split at h
  · exact absurd h (by simp)
  · rename_i x first last avg hx
    have h := (Except.ok.inj h).symm
    rw [h, hcmp]
    simp only [Cmp.test, decide_eq_true_eq]
    split_ifs with h1 h2
    · simp
    · have := sub_nonneg.mpr (not_lt.mp h1)
      positivity
    · positivity
    · have := sub_nonneg.mpr (not_lt.mp h1)
      positivity
    · positivity

theorem Logic.ShutsOffAbove.congr {l : Logic} {p q : Plant n} (h : l.ShutsOffAbove p)
    (hs : p.SameSettings q) : l.ShutsOffAbove q := by
  obtain ⟨h1, h2⟩ := h
  refine ⟨h1, ?_⟩
  split at h2
  · trivial
  · unfold Plant.mainsT at *
    rw [hs.2.2.1]
    exact h2

theorem lastUseful_spec (T : Nodes n ℚ) (m : ℚ) : ∀ (i : ℕ) (h : i ≤ n + 1),
    Logic.lastUseful T m i h ≤ i ∧
    (∀ j : Fin (n + 1), j.val < i → Logic.lastUseful T m i h ≤ j.val → m ≤ T j) ∧
    (0 < Logic.lastUseful T m i h → ∀ hlt : Logic.lastUseful T m i h - 1 < n + 1,
      T ⟨Logic.lastUseful T m i h - 1, hlt⟩ < m) := by
  intro i
  induction i with
  | zero => intro h; simp [Logic.lastUseful]
  | succ i ih =>
    intro h
    rw [Logic.lastUseful]
    split_ifs with hc
    · refine ⟨le_rfl, fun j hj hji => by omega, fun _ _ => by simpa using hc⟩
    · obtain ⟨h1, h2, h3⟩ := ih (by omega)
      refine ⟨by omega, fun j hj hji => ?_, h3⟩
      by_cases hji' : j.val < i
      · exact h2 j hji' hji
      · have : j = ⟨i, by omega⟩ := Fin.ext (by simp; omega)
        rw [this]; exact not_lt.mp hc

/-- The fraction a logic asks for is not negative while the logic does not hold. -/
theorem Logic.ShutsOffAbove.fract_nonneg {l : Logic} {p : Plant n} (hu : l.ShutsOffAbove p)
    (hnot : l.holds p ≠ .ok true) {f : ℚ} (h : l.fractToMeet p = .ok f) : 0 ≤ f := by
  obtain ⟨hcmp, hm⟩ := hu
  cases hk : l.kind with
  | temp a d => exact UpperLimit.fract_nonneg ⟨hcmp, a, d, hk⟩ p h
  | soc minU hyst useC constM =>
    rw [hk] at hm
    simp only at hm
    unfold Logic.fractToMeet at h
    rw [hk] at h
    simp only [Logic.socFract] at h
    split at h
    · exact absurd h (by simp)
    rename_i v hv
    have hdelta : 0 < l.comparisonValue p + tolMin - v := by
      have : ¬ v > l.comparisonValue p := by
        intro hc
        apply hnot
        unfold Logic.holds
        rw [hv, hcmp]
        simp only [Cmp.test, decide_eq_true hc]
      have h2 : (0 : ℚ) < tolMin := by norm_num [tolMin]
      linarith [not_lt.mp this]
    by_cases hbig : l.comparisonValue p + tolMin - v ≥ 1 / ((n : ℚ) + 1)
    · rw [if_pos hbig] at h
      rw [← Except.ok.inj h]; norm_num
    rw [if_neg hbig] at h
    by_cases hnode : Logic.lastUseful p.tank.nodeTs minU (n + 1) le_rfl < n + 1
    · rw [dif_pos hnode] at h
      split at h
      · exact absurd h (by simp)
      rename_i ch hch
      have hne : minU - p.mainsT useC constM ≠ 0 := by intro h0; linarith
      rw [if_neg hne] at h
      have hch0 : 0 ≤ ch := by
        unfold chargePerNode at hch
        split_ifs at hch with hc1
        · rw [← Except.ok.inj hch]
        · rw [← Except.ok.inj hch]
          apply div_nonneg <;> linarith
      obtain ⟨-, hl2, hl3⟩ := lastUseful_spec p.tank.nodeTs minU (n + 1) le_rfl
      set m := Logic.lastUseful p.tank.nodeTs minU (n + 1) le_rfl with hmdef
      have hTm : minU ≤ p.tank.nodeTs ⟨m, hnode⟩ := hl2 ⟨m, hnode⟩ hnode le_rfl
      have hcalc : 0 ≤ (if p.tank.nodeTs ⟨m, hnode⟩ ≥ p.setpoint then (1 : ℚ) else
          (((l.comparisonValue p + tolMin - v) * (((n : ℚ) + 1) * ch) +
            (p.tank.nodeTs ⟨m, hnode⟩ - p.mainsT useC constM) / (minU - p.mainsT useC constM)) *
            (minU - p.mainsT useC constM) + p.mainsT useC constM - p.tank.nodeTs ⟨m, hnode⟩) /
            (p.setpoint - p.tank.nodeTs ⟨m, hnode⟩)) := by
        split_ifs with hge
        · norm_num
        · have e : (((l.comparisonValue p + tolMin - v) * (((n : ℚ) + 1) * ch) +
            (p.tank.nodeTs ⟨m, hnode⟩ - p.mainsT useC constM) / (minU - p.mainsT useC constM)) *
            (minU - p.mainsT useC constM) + p.mainsT useC constM - p.tank.nodeTs ⟨m, hnode⟩) =
            (l.comparisonValue p + tolMin - v) * (((n : ℚ) + 1) * ch) *
              (minU - p.mainsT useC constM) := by
            field_simp
            ring
          rw [e]
          have h1 : 0 ≤ minU - p.mainsT useC constM := by linarith
          have h2 : 0 ≤ p.setpoint - p.tank.nodeTs ⟨m, hnode⟩ := by linarith [not_le.mp hge]
          have h3 := hdelta.le
          positivity
      by_cases h0 : m = 0
      · rw [dif_pos h0] at h
        rw [← Except.ok.inj h]; exact hcalc
      · rw [dif_neg h0] at h
        have hb := hl3 (Nat.pos_of_ne_zero h0) (by omega)
        have h1 : 0 ≤ minU - p.tank.nodeTs ⟨m - 1, by omega⟩ := by linarith
        have h2 : 0 < p.tank.nodeTs ⟨m, hnode⟩ - p.tank.nodeTs ⟨m - 1, by omega⟩ := by linarith
        rw [if_neg h2.ne'] at h
        rw [← Except.ok.inj h]
        refine le_min hcalc ?_
        have h3 : (0 : ℚ) ≤ tolMin := by norm_num [tolMin]
        positivity
    · rw [dif_neg hnode] at h
      rw [← Except.ok.inj h]; norm_num

theorem fractToMeetLoop_nonneg (p : Plant n) : ∀ (ls : List Logic) (frac f : ℚ), 0 ≤ frac →
    (∀ l ∈ ls, ∀ g, l.fractToMeet p = .ok g → 0 ≤ g) →
    SourceCfg.fractToMeetLoop p ls frac = .ok f → 0 ≤ f := by
  intro ls
  induction ls with
  | nil => intro frac f h0 _ h; rw [← Except.ok.inj h]; exact h0
  | cons l ls ih =>
    intro frac f h0 hl h
    rw [SourceCfg.fractToMeetLoop, bind_ok_iff] at h
    obtain ⟨g, hg, h⟩ := h
    refine ih _ f ?_ (fun l' hl' => hl l' (by simp [hl'])) h
    split_ifs
    · exact hl l (by simp) g hg
    · exact h0

theorem anyHolds_false (p : Plant n) (ls : List Logic) (h : anyHolds p ls = .ok false) :
    ∀ l ∈ ls, l.holds p ≠ .ok true := by
  intro l hl hc
  have := (anyHolds_iff p ls false h).mpr ⟨l, hl, hc⟩
  exact absurd this (by simp)

theorem shutsOff_false (s : SourceCfg n k) (p : Plant n) (h : s.shutsOff p = .ok false) :
    p.tank.nodeTs 0 < p.setpoint ∧ ∀ l ∈ s.shutOff, l.holds p ≠ .ok true := by
  unfold SourceCfg.shutsOff at h
  split_ifs at h with hc
  · exact absurd h (by simp)
  · exact ⟨not_le.mp hc, anyHolds_false p _ h⟩

/-- The fraction a heat source is allowed to heat is not negative while it does not shut off. -/
theorem fractToMeet_nonneg (s : SourceCfg n k) (p : Plant n)
    (hl : ∀ l ∈ s.shutOff, l.ShutsOffAbove p) (hoff : s.shutsOff p = .ok false) {f : ℚ}
    (h : s.fractToMeet p = .ok f) : 0 ≤ f :=
  fractToMeetLoop_nonneg p _ 1 f (by norm_num)
    (fun l hl' _ hg => (hl l hl').fract_nonneg ((shutsOff_false s p hoff).2 l hl') hg) h

end HPWH
