import Verif.Lemmas.Export

/-! # What an imported simulator consists of -/

namespace HPWH

variable {n k k₀ : ℕ}

/-- What `readConfig` sets. -/
structure Read (configs : Fin k → RsConfig) (primary : Option String) (i : Fin k) (r : ReadSource n k)
    (q : ReadSource n k × String) : Prop where
  turnOn : Logic.listOfRs (configs i).turnOn = .ok q.1.cfg.turnOn
  shutOff : Logic.listOfRs (configs i).shutOff = .ok q.1.cfg.shutOff
  standby : ∃ x, (configs i).standby.mapM Logic.ofRs = .ok x ∧ q.1.cfg.standby = x.join
  heatDist : q.1.cfg.heatDist = ((configs i).heatDist.map WDist.ofRs).getD []
  name : q.2 = (configs i).id.getD "heatsource"
  isVIP : q.1.cfg.isVIP = decide (q.2 = primary.getD "")
  backup : q.1.cfg.backup = (configs i).backup.map
    (lookupId configs · (Nat.lt_of_le_of_lt (Nat.zero_le _) i.isLt))
  followedBy : q.1.cfg.followedBy = (configs i).followedBy.map
    (lookupId configs · (Nat.lt_of_le_of_lt (Nat.zero_le _) i.isLt))
  companion : q.1.cfg.companion = (configs i).companion.map
    (lookupId configs · (Nat.lt_of_le_of_lt (Nat.zero_le _) i.isLt))
  kind : q.1.cfg.kind = r.cfg.kind
  minT : q.1.cfg.minT = r.cfg.minT
  maxT : q.1.cfg.maxT = r.cfg.maxT
  airflow : q.1.cfg.airflowFreedom = r.cfg.airflowFreedom
  inlet : q.1.cfg.externalInlet = r.cfg.externalInlet
  outlet : q.1.cfg.externalOutlet = r.cfg.externalOutlet
  info : q.1.info = r.info
  grid : q.1.grid = r.grid

theorem readConfig_ok {configs : Fin k → RsConfig} {primary : Option String} {i : Fin k}
    {r : ReadSource n k} {q : ReadSource n k × String} (h : readConfig configs primary i r = .ok q) :
    Read configs primary i r q := by
  unfold readConfig at h
  simp only at h
  obtain ⟨ton, hton, h⟩ := (bind_ok_iff _ _ _).mp h
  obtain ⟨off, hoff, h⟩ := (bind_ok_iff _ _ _).mp h
  obtain ⟨stb, hstb, h⟩ := (bind_ok_iff _ _ _).mp h
  simp only [pure, Except.pure, Except.ok.injEq] at h
  subst h
  exact ⟨hton, hoff, ⟨stb, hstb, rfl⟩, rfl, rfl, rfl, rfl, rfl, rfl, rfl, rfl, rfl, rfl, rfl, rfl, rfl, rfl⟩

namespace Machine

/-- What all imported simulators have in common. -/
structure ImportedAll (base : Machine n k₀) (d : SimInput k) (tank : RsTank) (configs : Fin k → RsConfig)
    (primary : Option String) (M' : Machine n k) (rs : Fin k → ReadSource n k) : Prop where
  nodes : d.numberOfNodes.getD 12 = n + 1
  read : ∀ i, ∃ q, Read configs primary i (rs i) (q, M'.name i) ∧
    M'.srcInfo i = q.info ∧ M'.grid i = q.grid ∧
    ∃ x y, M'.sim.cfg.src i = { q.cfg with externalInlet := x, externalOutlet := y }
  tankEq : M'.sim.tank = { base.sim.tank.ofRs tank with volumeFixed := d.fixedVolume.getD false }
  setpoint : M'.sim.setpoint = (d.standardSetpoint.map Units.K_TO_C).getD (Units.F_TO_C 135)
  depresses : M'.sim.cfg.doTempDepression = d.depressesTemperature.getD false
  compressor : M'.sim.cfg.compressorIndex = lastCondenser M'.sim.cfg.src
  tankInfo : M'.tankInfo = base.tankInfo.ofRs tank.info
  useCOP : M'.useCOP = d.interpolateCop.getD false
  style : M'.style = base.style

theorem ofInput_integrated {b : Btwxt} {base : Machine n k₀} {d : SimInput k} {x : RsIntegrated k}
    {M' : Machine n k} (hd : d.system = .integrated x) (h : ofInput b base d = .ok M') :
    ∃ rs, ImportedAll base d x.tank x.configs x.primary M' rs ∧
      (∀ i, readIntegratedSource b base.style (d.interpolateCop.getD false) (x.configs i).source = .ok (rs i)) ∧
      M'.info = base.info.ofRs x.info ∧ M'.rating = base.rating.ofRs x.rating := by
  unfold ofInput at h
  split_ifs at h with hn
  simp only [hd] at h
  unfold readIntegrated at h
  obtain ⟨qs, hq, h⟩ := (bind_ok_iff _ _ _).mp h
  simp only [pure, Except.pure, Except.ok.injEq] at h
  subst h
  have hc := collect_ok hq
  have hc' : ∀ i, ∃ r, readIntegratedSource b base.style (d.interpolateCop.getD false) (x.configs i).source
      = .ok r ∧ Read x.configs x.primary i r (qs i) := by
    intro i
    obtain ⟨r, hr, h⟩ := (bind_ok_iff _ _ _).mp (hc i)
    exact ⟨r, hr, readConfig_ok h⟩
  choose rs h1 h2 using hc'
  refine ⟨rs, ⟨hn, ?_, rfl, rfl, rfl, rfl, rfl, rfl, rfl⟩, h1, rfl, rfl⟩
  intro i
  exact ⟨(qs i).1, h2 i, rfl, rfl, _, _, rfl⟩

theorem lastCondenser_congr {a c : Fin k → SourceCfg n k} (h : ∀ i, (a i).kind = (c i).kind) :
    lastCondenser a = lastCondenser c := by
  unfold lastCondenser
  congr 2
  funext i
  rw [h i]

theorem lastCondenser_eq {a : Fin k → SourceCfg n k} {j : Fin k} (h : lastCondenser a = some j) :
    ∃ c, (a j).kind = .condenser c := by
  unfold lastCondenser at h
  have := List.mem_of_getLast? h
  rw [List.mem_filter] at this
  cases hk : (a j).kind with
  | condenser c => exact ⟨c, rfl⟩
  | resistance p => rw [hk] at this; simp at this

/-- The ports as written by `setPorts`. -/
theorem ofInput_central {b : Btwxt} {base : Machine n k₀} {d : SimInput k} {x : RsCentral k}
    {M' : Machine n k} (hd : d.system = .central x) (h : ofInput b base d = .ok M') :
    ∃ rs, ImportedAll base d x.tank x.configs x.primary M' rs ∧
      (∀ i, ∃ r, readCentralSource b base.style (d.interpolateCop.getD false) x.fixedFlowRate x.exchanger
        (x.configs i).source = .ok r ∧ readPorts x r = .ok (rs i)) ∧
      M'.info = base.info ∧ M'.rating = base.rating ∧
      ∃ j, M'.sim.cfg.compressorIndex = some j ∧
        portOf (x.inletHeight.getD 0 * (d.numberOfNodes.getD 0 : ℚ)) = .ok (M'.sim.cfg.src j).externalInlet ∧
        portOf (x.outletHeight.getD 0 * (d.numberOfNodes.getD 0 : ℚ)) = .ok (M'.sim.cfg.src j).externalOutlet ∧
        ∀ i, i ≠ j → (M'.sim.cfg.src i).externalInlet = (rs i).cfg.externalInlet ∧
          (M'.sim.cfg.src i).externalOutlet = (rs i).cfg.externalOutlet := by
  unfold ofInput at h
  split_ifs at h with hn
  simp only [hd] at h
  unfold readCentral at h
  obtain ⟨qs, hq, h⟩ := (bind_ok_iff _ _ _).mp h
  have hc := collect_ok hq
  have hc' : ∀ i, ∃ r, (∃ r0, readCentralSource b base.style (d.interpolateCop.getD false) x.fixedFlowRate
      x.exchanger (x.configs i).source = .ok r0 ∧ readPorts x r0 = .ok r) ∧
      Read x.configs x.primary i r (qs i) := by
    intro i
    obtain ⟨r, hr, h⟩ := (bind_ok_iff _ _ _).mp (hc i)
    obtain ⟨r1, hr1, h⟩ := (bind_ok_iff _ _ _).mp h
    exact ⟨r1, ⟨r, hr, hr1⟩, readConfig_ok h⟩
  choose rs h1 h2 using hc'
  unfold setPorts at h
  split at h
  · cases h
  next j hj =>
    obtain ⟨pi, hpi, h⟩ := (bind_ok_iff _ _ _).mp h
    obtain ⟨po, hpo, h⟩ := (bind_ok_iff _ _ _).mp h
    simp only [pure, Except.pure, Except.ok.injEq] at h
    subst h
    refine ⟨rs, ⟨hn, ?_, rfl, rfl, rfl, ?_, rfl, rfl, rfl⟩, h1, rfl, rfl, j, hj, ?_, ?_, ?_⟩
    · intro i
      refine ⟨(qs i).1, h2 i, rfl, rfl, ?_⟩
      by_cases hij : i = j
      · subst hij
        refine ⟨pi, po, ?_⟩
        simp only [Function.update_self]
        rfl
      · refine ⟨(qs i).1.cfg.externalInlet, (qs i).1.cfg.externalOutlet, ?_⟩
        simp only [Function.update_of_ne hij]
        rfl
    · refine lastCondenser_congr fun i => ?_
      by_cases hij : i = j
      · subst hij
        simp only [Function.update_self]
        rfl
      · simp only [Function.update_of_ne hij]
        rfl
    · simp only [Function.update_self]; exact hpi
    · simp only [Function.update_self]; exact hpo
    · intro i hij
      simp only [Function.update_of_ne hij]
      exact ⟨(h2 i).inlet, (h2 i).outlet⟩

end Machine

theorem lookupId_eq {configs : Fin k → RsConfig} {name : Fin k → String} (hinj : Function.Injective name)
    (hid : ∀ i, (configs i).id = some (name i)) (j : Fin k) (h : 0 < k) :
    lookupId configs (name j) h = j := by
  unfold lookupId
  have : ((List.finRange k).filter fun i => (configs i).id.getD "" = name j)
      = (List.finRange k).filter fun i => i = j := by
    congr 1
    funext i
    rw [hid i]
    simp [hinj.eq_iff]
  rw [this]
  have hx : ((List.finRange k).filter fun i => i = j) = [j] := by
    refine List.perm_singleton.mp ?_
    rw [List.perm_ext_iff_of_nodup ((List.nodup_finRange k).filter _) (List.nodup_singleton j)]
    intro i
    simp
  rw [hx]
  rfl

end HPWH
