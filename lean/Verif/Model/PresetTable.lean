import Verif.Model.Preset

/-! # The built-in models, src/HPWHpresets.cc:343-4374

One record for each model of test/models_json/models.json that `initLegacy` has a branch for; the branch is cited.
Numbers are as in the source, with its conversions of units; quantities the source computes from local variables are
written out. Models in the same branch share its lines. -/

namespace HPWH.Presets

open _root_.HPWH.Units

/-- `restankNoUA`, src/HPWHpresets.cc:357-384. -/
def restankNoUA : Preset where
  n := 11
  k := 2
  setpoint := F_TO_C 127
  volume_L := GAL_TO_L 50
  UA := 0
  volumeFixed := false
  mixesOnDraw := true
  src := ![⟨{ element 8 4500 with
          isVIP := true
          turnOn := [Logics.topThird (dF_TO_dC 20)]
          followedBy := some 1 }, .none⟩,
    ⟨{ element 0 4500 with
          turnOn := [Logics.bottomThird (dF_TO_dC 40),
              Logics.topNode (dF_TO_dC 10)] }, .none⟩]

/-- `restankHugeUA`, src/HPWHpresets.cc:387-415. -/
def restankHugeUA : Preset where
  n := 11
  k := 2
  setpoint := 50
  volume_L := 120
  UA := 500
  volumeFixed := false
  mixesOnDraw := false
  src := ![⟨{ element 9 4500 with
          isVIP := true
          turnOn := [Logics.topThird 20]
          followedBy := some 1 }, .none⟩,
    ⟨{ element 0 4500 with
          turnOn := [Logics.bottomThird 20,
              Logics.topNode 15] }, .none⟩]

/-- `restankRealistic`, src/HPWHpresets.cc:418-446. -/
def restankRealistic : Preset where
  n := 11
  k := 2
  setpoint := F_TO_C 127
  volume_L := GAL_TO_L 50
  UA := 10
  volumeFixed := false
  mixesOnDraw := false
  src := ![⟨{ element 9 4500 with
          isVIP := true
          turnOn := [Logics.topThird 20]
          followedBy := some 1 }, .none⟩,
    ⟨{ element 0 4500 with
          turnOn := [Logics.bottomThird 20,
              Logics.topNode 15] }, .none⟩]

/-- `basicIntegrated`, src/HPWHpresets.cc:465-524. -/
def basicIntegrated : Preset where
  n := 11
  k := 3
  setpoint := 50
  volume_L := 120
  UA := 10
  volumeFixed := false
  mixesOnDraw := false
  src := ![⟨{ element 9 4500 with
          isVIP := true
          turnOn := [Logics.topThird 20]
          followedBy := some 1 }, .none⟩,
    ⟨{ SourceCfg.blank (.condenser { CondCfg.blank with
            configuration := .wrapped
            maxSetpoint := maxOutletR134A
            hysteresis := dF_TO_dC 4 }) with
          heatDist := condensity [1, 0]
          minT := 0
          maxT := F_TO_C 120
          turnOn := [Logics.bottomThird 20,
              Logics.topNode 15]
          backup := some 2
          followedBy := some 2 },
        .polys
         [⟨47, [29 / 100 * 1000, 159 / 100000 * 1000, 107 / 100000000 * 1000], [449 / 100, -(187 / 10000),
          -(133 / 10000000)]⟩,
          ⟨67, [375 / 1000 * 1000, 121 / 100000 * 1000, 216 / 100000000 * 1000], [56 / 10, -(252 / 10000),
           254 / 100000000]⟩]⟩,
    ⟨{ element 0 4500 with
          turnOn := [Logics.bottomThird 20,
              Logics.topNode 15]
          backup := some 1 }, .none⟩]

/-- `AOSmithCAHP120`, src/HPWHpresets.cc:2545-2619. -/
def AOSmithCAHP120 : Preset where
  n := 23
  k := 3
  setpoint := F_TO_C 150
  volume_L := GAL_TO_L (11176 / 100)
  UA := UAf_TO_UAc (394 / 100)
  mixesOnDraw := false
  src := ![⟨{ element 7 6000 with
          isVIP := true
          turnOn := [Logics.topThird 12]
          shutOff := [Logics.fifthSixthMaxTemp (F_TO_C 117)]
          companion := some 1
          followedBy := some 1 }, .none⟩,
    ⟨{ element (k := 3) 0 6000 with
          heatDist := condensity [2 / 10, 8 / 10, 0, 0, 0, 0, 0, 0, 0, 0, 0, 0]
          turnOn := [Logics.topThird 12]
          shutOff := [Logics.secondSixthMaxTemp (F_TO_C 109)]
          backup := some 2
          companion := some 2
          followedBy := some 2 }, .none⟩,
    ⟨{ SourceCfg.blank (.condenser { CondCfg.blank with
            configuration := .wrapped
            maxSetpoint := maxOutletR134A
            hysteresis := dF_TO_dC 2 }) with
          heatDist := condensity [3 / 10, 3 / 10, 2 / 10, 1 / 10, 1 / 10, 0, 0, 0, 0, 0, 0, 0]
          minT := F_TO_C 47
          maxT := F_TO_C 110
          turnOn := [Logics.secondSixth (dF_TO_dC (525 / 100)),
              Logics.topNode (dF_TO_dC 5)]
          backup := some 1 },
        .polys
         [⟨50, [201049966 / 100000, -(420966 / 100000), 85395 / 1000000], [591 / 100, -(26299 / 1000000), 0]⟩,
          ⟨675 / 10, [2171012 / 1000, -(6936571 / 1000000), 1094962 / 10000000], [726272 / 100000,
           -(34135 / 1000000), 0]⟩,
          ⟨95, [22760625 / 10000, -(7106608 / 1000000), 119911 / 1000000], [8821262 / 1000000, -(42059 / 1000000),
           0]⟩]⟩]

/-- `AOSmithHPTS40`, src/HPWHpresets.cc:2620-2720. -/
def AOSmithHPTS40 : Preset where
  n := 11
  k := 3
  setpoint := F_TO_C 127
  volume_L := GAL_TO_L (361 / 10)
  UA := 95 / 10
  mixesOnDraw := true
  src := ![⟨{ element 8 4500 with
          isVIP := true
          turnOn := [Logics.topThird (dF_TO_dC (1187 / 100))]
          companion := some 2
          followedBy := some 2 }, .none⟩,
    ⟨{ element 0 4500 with
          backup := some 2
          followedBy := some 2 }, .none⟩,
    ⟨{ SourceCfg.blank (.condenser { CondCfg.blank with
            configuration := .wrapped
            maxSetpoint := maxOutletR134A
            hysteresis := dF_TO_dC 1 }) with
          heatDist := condensity [0, 2 / 10, 2 / 10, 2 / 10, 2 / 10, 2 / 10, 0, 0, 0, 0, 0, 0]
          minT := F_TO_C 37
          maxT := F_TO_C 120
          turnOn := [Logics.bottomThird (dF_TO_dC (302 / 10)),
              Logics.topNode (dF_TO_dC 9)]
          backup := some 1 },
        .polys
         [⟨50, [6682 / 100, 249 / 100, 0], [864 / 100, -(436 / 10000), 0]⟩,
          ⟨675 / 10, [851 / 10, 238 / 100, 0], [1082 / 100, -(551 / 10000), 0]⟩,
          ⟨95, [89, 262 / 100, 0], [1252 / 100, -(534 / 10000), 0]⟩]⟩]

/-- `AOSmithHPTS50`, src/HPWHpresets.cc:2620-2720. -/
def AOSmithHPTS50 : Preset where
  n := 11
  k := 3
  setpoint := F_TO_C 127
  volume_L := GAL_TO_L (456 / 10)
  UA := 6403 / 1000
  mixesOnDraw := true
  src := ![⟨{ element 8 4500 with
          isVIP := true
          turnOn := [Logics.topThird (dF_TO_dC (1187 / 100))]
          companion := some 2
          followedBy := some 2 }, .none⟩,
    ⟨{ element 0 4500 with
          backup := some 2
          followedBy := some 2 }, .none⟩,
    ⟨{ SourceCfg.blank (.condenser { CondCfg.blank with
            configuration := .wrapped
            maxSetpoint := maxOutletR134A
            hysteresis := dF_TO_dC 1 }) with
          heatDist := condensity [0, 2 / 10, 2 / 10, 2 / 10, 2 / 10, 2 / 10, 0, 0, 0, 0, 0, 0]
          minT := F_TO_C 37
          maxT := F_TO_C 120
          turnOn := [Logics.bottomThird (dF_TO_dC (302 / 10)),
              Logics.topNode (dF_TO_dC 9)]
          backup := some 1 },
        .polys
         [⟨50, [6682 / 100, 249 / 100, 0], [864 / 100, -(436 / 10000), 0]⟩,
          ⟨675 / 10, [851 / 10, 238 / 100, 0], [1082 / 100, -(551 / 10000), 0]⟩,
          ⟨95, [89, 262 / 100, 0], [1252 / 100, -(534 / 10000), 0]⟩]⟩]

/-- `AOSmithHPTS66`, src/HPWHpresets.cc:2620-2720. -/
def AOSmithHPTS66 : Preset where
  n := 11
  k := 3
  setpoint := F_TO_C 127
  volume_L := GAL_TO_L (6763 / 100)
  UA := UAf_TO_UAc (15 / 10) * (6403 / 1000) / (UAf_TO_UAc (116 / 100))
  mixesOnDraw := true
  src := ![⟨{ element 8 4500 with
          isVIP := true
          turnOn := [Logics.topThird (dF_TO_dC (1187 / 100))]
          companion := some 2
          followedBy := some 2 }, .none⟩,
    ⟨{ element 0 4500 with
          backup := some 2
          followedBy := some 2 }, .none⟩,
    ⟨{ SourceCfg.blank (.condenser { CondCfg.blank with
            configuration := .wrapped
            maxSetpoint := maxOutletR134A
            hysteresis := dF_TO_dC 1 }) with
          heatDist := condensity [0, 2 / 10, 2 / 10, 2 / 10, 2 / 10, 2 / 10, 0, 0, 0, 0, 0, 0]
          minT := F_TO_C 37
          maxT := F_TO_C 120
          turnOn := [Logics.bottomThird (dF_TO_dC (302 / 10)),
              Logics.topNode (dF_TO_dC 9)]
          backup := some 1 },
        .polys
         [⟨50, [6682 / 100, 249 / 100, 0], [864 / 100, -(436 / 10000), 0]⟩,
          ⟨675 / 10, [851 / 10, 238 / 100, 0], [1082 / 100, -(551 / 10000), 0]⟩,
          ⟨95, [89, 262 / 100, 0], [1252 / 100, -(534 / 10000), 0]⟩]⟩]

/-- `AOSmithHPTS80`, src/HPWHpresets.cc:2620-2720. -/
def AOSmithHPTS80 : Preset where
  n := 11
  k := 3
  setpoint := F_TO_C 127
  volume_L := GAL_TO_L (8194 / 100)
  UA := UAf_TO_UAc (173 / 100) * (6403 / 1000) / (UAf_TO_UAc (116 / 100))
  mixesOnDraw := true
  src := ![⟨{ element 8 4500 with
          isVIP := true
          turnOn := [Logics.topThird (dF_TO_dC (1187 / 100))]
          companion := some 2
          followedBy := some 2 }, .none⟩,
    ⟨{ element 0 4500 with
          backup := some 2
          followedBy := some 2 }, .none⟩,
    ⟨{ SourceCfg.blank (.condenser { CondCfg.blank with
            configuration := .wrapped
            maxSetpoint := maxOutletR134A
            hysteresis := dF_TO_dC 1 }) with
          heatDist := condensity [0, 2 / 10, 2 / 10, 2 / 10, 2 / 10, 2 / 10, 0, 0, 0, 0, 0, 0]
          minT := F_TO_C 37
          maxT := F_TO_C 120
          turnOn := [Logics.bottomThird (dF_TO_dC (302 / 10)),
              Logics.topNode (dF_TO_dC 9)]
          backup := some 1 },
        .polys
         [⟨50, [6682 / 100, 249 / 100, 0], [864 / 100, -(436 / 10000), 0]⟩,
          ⟨675 / 10, [851 / 10, 238 / 100, 0], [1082 / 100, -(551 / 10000), 0]⟩,
          ⟨95, [89, 262 / 100, 0], [1252 / 100, -(534 / 10000), 0]⟩]⟩]

/-- `AOSmithHPTU50`, src/HPWHpresets.cc:2173-2271. -/
def AOSmithHPTU50 : Preset where
  n := 23
  k := 3
  setpoint := F_TO_C 127
  volume_L := 171
  UA := 6
  mixesOnDraw := true
  src := ![⟨{ element 8 4500 with
          isVIP := true
          turnOn := [nodesLogic "top sixth absolute" [11, 12] (F_TO_C 105) true .less false]
          companion := some 2
          followedBy := some 1 }, .none⟩,
    ⟨{ element 0 4500 with
          shutOff := [Logics.bottomTwelfthMaxTemp (F_TO_C 100)]
          backup := some 2
          followedBy := some 2 }, .none⟩,
    ⟨{ SourceCfg.blank (.condenser { CondCfg.blank with
            configuration := .wrapped
            maxSetpoint := maxOutletR134A
            hysteresis := dF_TO_dC 2 }) with
          heatDist := condensity [1 / 5, 1 / 5, 1 / 5, 1 / 5, 1 / 5, 0, 0, 0, 0, 0, 0, 0]
          minT := F_TO_C 42
          maxT := F_TO_C 120
          turnOn := [Logics.bottomThird (dF_TO_dC 35),
              Logics.topNode (dF_TO_dC 9)]
          backup := some 1 },
        .polys
         [⟨50, [170, 202 / 100, 0], [593 / 100, -(27 / 1000), 0]⟩,
          ⟨70, [1445 / 10, 242 / 100, 0], [767 / 100, -(37 / 1000), 0]⟩,
          ⟨95, [941 / 10, 315 / 100, 0], [111 / 10, -(56 / 1000), 0]⟩]⟩]

/-- `AOSmithHPTU66`, src/HPWHpresets.cc:2272-2376. -/
def AOSmithHPTU66 : Preset where
  n := 23
  k := 3
  setpoint := F_TO_C 127
  volume_L := 2446 / 10
  UA := 8
  mixesOnDraw := true
  src := ![⟨{ element 8 4500 with
          isVIP := true
          turnOn := [nodesLogic "top sixth absolute" [11, 12] (F_TO_C 105) true .less false]
          companion := some 2
          followedBy := some 1 }, .none⟩,
    ⟨{ element 0 4500 with
          shutOff := [Logics.bottomTwelfthMaxTemp (F_TO_C 100)]
          backup := some 2
          followedBy := some 2 }, .none⟩,
    ⟨{ SourceCfg.blank (.condenser { CondCfg.blank with
            configuration := .wrapped
            maxSetpoint := maxOutletR134A
            hysteresis := dF_TO_dC 2 }) with
          heatDist := condensity [1, 0, 0]
          minT := F_TO_C 42
          maxT := F_TO_C 120
          turnOn := [Logics.bottomThird (dF_TO_dC 35),
              Logics.topNode (dF_TO_dC 9)]
          backup := some 1 },
        .polys
         [⟨50, [170, 202 / 100, 0], [593 / 100, -(27 / 1000), 0]⟩,
          ⟨70, [1445 / 10, 242 / 100, 0], [767 / 100, -(37 / 1000), 0]⟩,
          ⟨95, [941 / 10, 315 / 100, 0], [111 / 10, -(56 / 1000), 0]⟩]⟩]

/-- `AOSmithHPTU80`, src/HPWHpresets.cc:2377-2476. -/
def AOSmithHPTU80 : Preset where
  n := 23
  k := 3
  setpoint := F_TO_C 127
  volume_L := 2995 / 10
  UA := 9
  mixesOnDraw := true
  src := ![⟨{ element 8 4500 with
          isVIP := true
          turnOn := [nodesLogic "top sixth absolute" [11, 12] (F_TO_C 105) true .less false]
          companion := some 2
          followedBy := some 1 }, .none⟩,
    ⟨{ element 0 4500 with
          shutOff := [Logics.bottomTwelfthMaxTemp (F_TO_C 100)]
          backup := some 2
          followedBy := some 2 }, .none⟩,
    ⟨{ SourceCfg.blank (.condenser { CondCfg.blank with
            configuration := .wrapped
            maxSetpoint := maxOutletR134A
            hysteresis := dF_TO_dC 1 }) with
          heatDist := condensity [1, 0, 0, 0]
          minT := F_TO_C 42
          maxT := F_TO_C 120
          turnOn := [Logics.bottomThird (dF_TO_dC 35),
              Logics.topNode (dF_TO_dC 9)]
          backup := some 1 },
        .polys
         [⟨50, [170, 202 / 100, 0], [593 / 100, -(27 / 1000), 0]⟩,
          ⟨70, [1445 / 10, 242 / 100, 0], [767 / 100, -(37 / 1000), 0]⟩,
          ⟨95, [941 / 10, 315 / 100, 0], [111 / 10, -(56 / 1000), 0]⟩]⟩]

/-- `AOSmithHPTU80_DR`, src/HPWHpresets.cc:2477-2544. -/
def AOSmithHPTU80_DR : Preset where
  n := 11
  k := 3
  setpoint := F_TO_C 127
  volume_L := 2839 / 10
  UA := 9
  mixesOnDraw := true
  src := ![⟨{ element 8 4500 with
          isVIP := true
          turnOn := [Logics.topThirdAbsolute (F_TO_C 87)]
          followedBy := some 1 }, .none⟩,
    ⟨{ element 0 4500 with
          shutOff := [Logics.bottomTwelfthMaxTemp (F_TO_C (80108 / 1000))]
          backup := some 2
          followedBy := some 2 }, .none⟩,
    ⟨{ SourceCfg.blank (.condenser { CondCfg.blank with
            configuration := .wrapped
            maxSetpoint := maxOutletR134A
            hysteresis := dF_TO_dC 2 }) with
          heatDist := condensity [1, 0, 0]
          minT := F_TO_C 42
          maxT := F_TO_C 120
          turnOn := [Logics.bottomThird (dF_TO_dC (341636 / 10000)),
              Logics.topNode (dF_TO_dC (71528 / 10000))]
          backup := some 1 },
        .polys
         [⟨47, [1426 / 10, 2152 / 1000, 0], [6989258 / 1000000, -(3832 / 100000), 0]⟩,
          ⟨67, [12014 / 100, 2513 / 1000, 0], [8188 / 1000, -(432 / 10000), 0]⟩]⟩]

/-- `AOSmithPHPT60`, src/HPWHpresets.cc:527-590. -/
def AOSmithPHPT60 : Preset where
  n := 11
  k := 3
  setpoint := F_TO_C 127
  volume_L := 2158 / 10
  UA := 731 / 100
  mixesOnDraw := true
  src := ![⟨{ element 8 4250 with
          isVIP := true
          turnOn := [Logics.topThird (dF_TO_dC 25)]
          followedBy := some 1 }, .none⟩,
    ⟨{ SourceCfg.blank (.condenser { CondCfg.blank with
            configuration := .wrapped
            maxSetpoint := maxOutletR134A
            hysteresis := dF_TO_dC 4 }) with
          heatDist := condensity [1 / 5, 1 / 5, 1 / 5, 1 / 5, 1 / 5, 0, 0, 0, 0, 0, 0, 0]
          minT := F_TO_C 45
          maxT := F_TO_C 120
          turnOn := [Logics.bottomThird (dF_TO_dC (436 / 10)),
              Logics.topNode (dF_TO_dC (238 / 10))]
          backup := some 2
          followedBy := some 2 },
        .polys
         [⟨47, [467 / 1000 * 1000, 281 / 100000 * 1000, 72 / 10000000 * 1000], [486 / 100, -(222 / 10000),
          -(1 / 100000)]⟩,
          ⟨67, [541 / 1000 * 1000, 147 / 100000 * 1000, 176 / 10000000 * 1000], [658 / 100, -(392 / 10000),
           407 / 10000000]⟩]⟩,
    ⟨{ element 0 2000 with
          turnOn := [Logics.bottomThird (dF_TO_dC (436 / 10))]
          backup := some 1 }, .none⟩]

/-- `AOSmithPHPT80`, src/HPWHpresets.cc:591-655. -/
def AOSmithPHPT80 : Preset where
  n := 11
  k := 3
  setpoint := F_TO_C 127
  volume_L := 2839 / 10
  UA := 88 / 10
  mixesOnDraw := true
  src := ![⟨{ element 8 4250 with
          isVIP := true
          turnOn := [Logics.topThird (dF_TO_dC 25)]
          followedBy := some 1 }, .none⟩,
    ⟨{ SourceCfg.blank (.condenser { CondCfg.blank with
            configuration := .wrapped
            maxSetpoint := maxOutletR134A
            hysteresis := dF_TO_dC 4 }) with
          heatDist := condensity [1 / 5, 1 / 5, 1 / 5, 1 / 5, 1 / 5, 0, 0, 0, 0, 0, 0, 0]
          minT := F_TO_C 45
          maxT := F_TO_C 120
          turnOn := [Logics.bottomThird (dF_TO_dC (436 / 10)),
              Logics.topNode (dF_TO_dC (238 / 10))]
          backup := some 2
          followedBy := some 2 },
        .polys
         [⟨47, [467 / 1000 * 1000, 281 / 100000 * 1000, 72 / 10000000 * 1000], [486 / 100, -(222 / 10000),
          -(1 / 100000)]⟩,
          ⟨67, [541 / 1000 * 1000, 147 / 100000 * 1000, 176 / 10000000 * 1000], [658 / 100, -(392 / 10000),
           407 / 10000000]⟩]⟩,
    ⟨{ element 0 2000 with
          turnOn := [Logics.bottomThird (dF_TO_dC (436 / 10))]
          backup := some 1 }, .none⟩]

/-- `AquaThermAire`, src/HPWHpresets.cc:3979-4026. -/
def AquaThermAire : Preset where
  n := 11
  k := 1
  setpoint := 50
  volume_L := GAL_TO_L (544 / 10)
  UA := 1035 / 100
  mixesOnDraw := false
  hasHeatExchanger := true
  heatExchangerEffectiveness := 93 / 100
  initial := some (4932 / 100)
  src := ![⟨{ SourceCfg.blank (.condenser { CondCfg.blank with
            configuration := .submerged
            hysteresis := dF_TO_dC 1 }) with
          heatDist := condensity [1]
          minT := F_TO_C (-25)
          maxT := F_TO_C 125
          turnOn := [Logics.wholeTank 111 .F true,
              Logics.topNode (dF_TO_dC 14)] },
        .polys
         [⟨5, [-1356, 398 / 10, 0], [2003 / 1000, -(3637 / 1000000), 0]⟩,
          ⟨34, [-1485, 436 / 10, 0], [2805 / 1000, -(5092 / 1000000), 0]⟩,
          ⟨67, [-1632, 4793 / 100, 0], [4076 / 1000, -(74 / 10000), 0]⟩,
          ⟨95, [-1757, 516 / 10, 0], [6843 / 1000, -(12424 / 1000000), 0]⟩]⟩]

/-- `AWHSTier3Generic40`, src/HPWHpresets.cc:3717-3794. -/
def AWHSTier3Generic40 : Preset where
  n := 11
  k := 3
  setpoint := F_TO_C 127
  volume_L := GAL_TO_L (361 / 10)
  UA := 5
  mixesOnDraw := true
  src := ![⟨{ element 6 4500 with
          isVIP := true
          turnOn := [Logics.topThird (dF_TO_dC 20)]
          shutOff := [Logics.topNodeMaxTemp (F_TO_C (1166358 / 10000))]
          followedBy := some 1 }, .none⟩,
    ⟨{ element 0 4000 with
          heatDist := condensity [0, 2 / 10, 8 / 10, 0, 0, 0, 0, 0, 0, 0, 0, 0]
          turnOn := [Logics.thirdSixth (dF_TO_dC 60)]
          shutOff := [Logics.bottomTwelfthMaxTemp (F_TO_C 80)]
          backup := some 2
          followedBy := some 2 }, .none⟩,
    ⟨{ SourceCfg.blank (.condenser { CondCfg.blank with
            configuration := .wrapped
            maxSetpoint := maxOutletR134A
            hysteresis := dF_TO_dC 2 }) with
          heatDist := condensity [1, 0, 0]
          minT := F_TO_C 42
          maxT := F_TO_C 120
          turnOn := [Logics.bottomThird (dF_TO_dC (336883 / 10000)),
              Logics.topNode (dF_TO_dC (110648 / 10000))]
          backup := some 1 },
        .polys tier3⟩]

/-- `AWHSTier3Generic50`, src/HPWHpresets.cc:3717-3794. -/
def AWHSTier3Generic50 : Preset where
  n := 11
  k := 3
  setpoint := F_TO_C 127
  volume_L := GAL_TO_L 45
  UA := 65 / 10
  mixesOnDraw := true
  src := ![⟨{ element 6 4500 with
          isVIP := true
          turnOn := [Logics.topThird (dF_TO_dC 20)]
          shutOff := [Logics.topNodeMaxTemp (F_TO_C (1166358 / 10000))]
          followedBy := some 1 }, .none⟩,
    ⟨{ element 0 4000 with
          heatDist := condensity [0, 2 / 10, 8 / 10, 0, 0, 0, 0, 0, 0, 0, 0, 0]
          turnOn := [Logics.thirdSixth (dF_TO_dC 60)]
          shutOff := [Logics.bottomTwelfthMaxTemp (F_TO_C 80)]
          backup := some 2
          followedBy := some 2 }, .none⟩,
    ⟨{ SourceCfg.blank (.condenser { CondCfg.blank with
            configuration := .wrapped
            maxSetpoint := maxOutletR134A
            hysteresis := dF_TO_dC 2 }) with
          heatDist := condensity [1, 0, 0]
          minT := F_TO_C 42
          maxT := F_TO_C 120
          turnOn := [Logics.bottomThird (dF_TO_dC (336883 / 10000)),
              Logics.topNode (dF_TO_dC (110648 / 10000))]
          backup := some 1 },
        .polys tier3⟩]

/-- `AWHSTier3Generic65`, src/HPWHpresets.cc:3717-3794. -/
def AWHSTier3Generic65 : Preset where
  n := 11
  k := 3
  setpoint := F_TO_C 127
  volume_L := GAL_TO_L 64
  UA := 76 / 10
  mixesOnDraw := true
  src := ![⟨{ element 6 4500 with
          isVIP := true
          turnOn := [Logics.topThird (dF_TO_dC 20)]
          shutOff := [Logics.topNodeMaxTemp (F_TO_C (1166358 / 10000))]
          followedBy := some 1 }, .none⟩,
    ⟨{ element 0 4000 with
          heatDist := condensity [0, 2 / 10, 8 / 10, 0, 0, 0, 0, 0, 0, 0, 0, 0]
          turnOn := [Logics.thirdSixth (dF_TO_dC 60)]
          shutOff := [Logics.bottomTwelfthMaxTemp (F_TO_C 80)]
          backup := some 2
          followedBy := some 2 }, .none⟩,
    ⟨{ SourceCfg.blank (.condenser { CondCfg.blank with
            configuration := .wrapped
            maxSetpoint := maxOutletR134A
            hysteresis := dF_TO_dC 2 }) with
          heatDist := condensity [1, 0, 0]
          minT := F_TO_C 42
          maxT := F_TO_C 120
          turnOn := [Logics.bottomThird (dF_TO_dC (336883 / 10000)),
              Logics.topNode (dF_TO_dC (110648 / 10000))]
          backup := some 1 },
        .polys tier3⟩]

/-- `AWHSTier3Generic80`, src/HPWHpresets.cc:3717-3794. -/
def AWHSTier3Generic80 : Preset where
  n := 11
  k := 3
  setpoint := F_TO_C 127
  volume_L := GAL_TO_L (754 / 10)
  UA := 10
  mixesOnDraw := true
  src := ![⟨{ element 6 4500 with
          isVIP := true
          turnOn := [Logics.topThird (dF_TO_dC 20)]
          shutOff := [Logics.topNodeMaxTemp (F_TO_C (1166358 / 10000))]
          followedBy := some 1 }, .none⟩,
    ⟨{ element 0 4000 with
          heatDist := condensity [0, 2 / 10, 8 / 10, 0, 0, 0, 0, 0, 0, 0, 0, 0]
          turnOn := [Logics.thirdSixth (dF_TO_dC 60)]
          shutOff := [Logics.bottomTwelfthMaxTemp (F_TO_C 80)]
          backup := some 2
          followedBy := some 2 }, .none⟩,
    ⟨{ SourceCfg.blank (.condenser { CondCfg.blank with
            configuration := .wrapped
            maxSetpoint := maxOutletR134A
            hysteresis := dF_TO_dC 2 }) with
          heatDist := condensity [1, 0, 0]
          minT := F_TO_C 42
          maxT := F_TO_C 120
          turnOn := [Logics.bottomThird (dF_TO_dC (336883 / 10000)),
              Logics.topNode (dF_TO_dC (110648 / 10000))]
          backup := some 1 },
        .polys tier3⟩]

/-- `AWHSTier4Generic40`, src/HPWHpresets.cc:4080-4155. -/
def AWHSTier4Generic40 : Preset where
  n := 11
  k := 3
  setpoint := F_TO_C 127
  volume_L := GAL_TO_L 36
  UA := 5
  mixesOnDraw := true
  src := ![⟨{ element 8 4500 with
          isVIP := true
          turnOn := [Logics.topThird (dF_TO_dC 12)]
          companion := some 2
          followedBy := some 2 }, .none⟩,
    ⟨{ element 0 4500 with
          turnOn := [Logics.thirdSixth (dF_TO_dC 60)]
          shutOff := [Logics.bottomTwelfthMaxTemp (F_TO_C 80)]
          backup := some 2
          followedBy := some 2 }, .none⟩,
    ⟨{ SourceCfg.blank (.condenser { CondCfg.blank with
            configuration := .wrapped
            maxSetpoint := maxOutletR134A
            hysteresis := dF_TO_dC 1 }) with
          heatDist := condensity [2 / 10, 2 / 10, 2 / 10, 2 / 10, 2 / 10, 0, 0, 0, 0, 0, 0, 0]
          minT := F_TO_C 37
          maxT := F_TO_C 120
          turnOn := [Logics.bottomThird (dF_TO_dC 30),
              Logics.topNode (dF_TO_dC 9)]
          backup := some 1 },
        .polys tier4⟩]

/-- `AWHSTier4Generic50`, src/HPWHpresets.cc:4080-4155. -/
def AWHSTier4Generic50 : Preset where
  n := 11
  k := 3
  setpoint := F_TO_C 127
  volume_L := GAL_TO_L 45
  UA := 65 / 10
  mixesOnDraw := true
  src := ![⟨{ element 8 4500 with
          isVIP := true
          turnOn := [Logics.topThird (dF_TO_dC 12)]
          companion := some 2
          followedBy := some 2 }, .none⟩,
    ⟨{ element 0 4500 with
          turnOn := [Logics.thirdSixth (dF_TO_dC 60)]
          shutOff := [Logics.bottomTwelfthMaxTemp (F_TO_C 80)]
          backup := some 2
          followedBy := some 2 }, .none⟩,
    ⟨{ SourceCfg.blank (.condenser { CondCfg.blank with
            configuration := .wrapped
            maxSetpoint := maxOutletR134A
            hysteresis := dF_TO_dC 1 }) with
          heatDist := condensity [2 / 10, 2 / 10, 2 / 10, 2 / 10, 2 / 10, 0, 0, 0, 0, 0, 0, 0]
          minT := F_TO_C 37
          maxT := F_TO_C 120
          turnOn := [Logics.bottomThird (dF_TO_dC 30),
              Logics.topNode (dF_TO_dC 9)]
          backup := some 1 },
        .polys tier4⟩]

/-- `AWHSTier4Generic65`, src/HPWHpresets.cc:4080-4155. -/
def AWHSTier4Generic65 : Preset where
  n := 11
  k := 3
  setpoint := F_TO_C 127
  volume_L := GAL_TO_L 64
  UA := 76 / 10
  mixesOnDraw := true
  src := ![⟨{ element 8 4500 with
          isVIP := true
          turnOn := [Logics.topThird (dF_TO_dC 12)]
          companion := some 2
          followedBy := some 2 }, .none⟩,
    ⟨{ element 0 4500 with
          turnOn := [Logics.thirdSixth (dF_TO_dC 60)]
          shutOff := [Logics.bottomTwelfthMaxTemp (F_TO_C 80)]
          backup := some 2
          followedBy := some 2 }, .none⟩,
    ⟨{ SourceCfg.blank (.condenser { CondCfg.blank with
            configuration := .wrapped
            maxSetpoint := maxOutletR134A
            hysteresis := dF_TO_dC 1 }) with
          heatDist := condensity [2 / 10, 2 / 10, 2 / 10, 2 / 10, 2 / 10, 0, 0, 0, 0, 0, 0, 0]
          minT := F_TO_C 37
          maxT := F_TO_C 120
          turnOn := [Logics.bottomThird (dF_TO_dC 30),
              Logics.topNode (dF_TO_dC 9)]
          backup := some 1 },
        .polys tier4⟩]

/-- `AWHSTier4Generic80`, src/HPWHpresets.cc:4080-4155. -/
def AWHSTier4Generic80 : Preset where
  n := 11
  k := 3
  setpoint := F_TO_C 127
  volume_L := GAL_TO_L (754 / 10)
  UA := 10
  mixesOnDraw := true
  src := ![⟨{ element 8 4500 with
          isVIP := true
          turnOn := [Logics.topThird (dF_TO_dC 12)]
          companion := some 2
          followedBy := some 2 }, .none⟩,
    ⟨{ element 0 4500 with
          turnOn := [Logics.thirdSixth (dF_TO_dC 60)]
          shutOff := [Logics.bottomTwelfthMaxTemp (F_TO_C 80)]
          backup := some 2
          followedBy := some 2 }, .none⟩,
    ⟨{ SourceCfg.blank (.condenser { CondCfg.blank with
            configuration := .wrapped
            maxSetpoint := maxOutletR134A
            hysteresis := dF_TO_dC 1 }) with
          heatDist := condensity [2 / 10, 2 / 10, 2 / 10, 2 / 10, 2 / 10, 0, 0, 0, 0, 0, 0, 0]
          minT := F_TO_C 37
          maxT := F_TO_C 120
          turnOn := [Logics.bottomThird (dF_TO_dC 30),
              Logics.topNode (dF_TO_dC 9)]
          backup := some 1 },
        .polys tier4⟩]

/-- `BWC2020_65`, src/HPWHpresets.cc:3017-3072. -/
def BWC2020_65 : Preset where
  n := 11
  k := 3
  setpoint := F_TO_C 127
  volume_L := GAL_TO_L 64
  UA := 76 / 10
  mixesOnDraw := true
  src := ![⟨{ element 6 4500 with
          isVIP := true
          turnOn := [Logics.topThird (dF_TO_dC 20)]
          shutOff := [Logics.topNodeMaxTemp (F_TO_C (1166358 / 10000))] }, .none⟩,
    ⟨{ element 0 4000 with
          heatDist := condensity [0, 2 / 10, 8 / 10, 0, 0, 0, 0, 0, 0, 0, 0, 0]
          turnOn := [Logics.thirdSixth (dF_TO_dC 60)]
          shutOff := [Logics.bottomTwelfthMaxTemp (F_TO_C 80)]
          backup := some 2 }, .none⟩,
    ⟨{ SourceCfg.blank (.condenser { CondCfg.blank with
            configuration := .wrapped
            maxSetpoint := maxOutletR134A
            hysteresis := dF_TO_dC 2 }) with
          heatDist := condensity [1, 0, 0]
          minT := F_TO_C 37
          maxT := F_TO_C 120
          turnOn := [Logics.bottomThird (dF_TO_dC (336883 / 10000)),
              Logics.topNode (dF_TO_dC (110648 / 10000))]
          backup := some 1 },
        .polys
         [⟨50, [187064124 / 1000000, 1939747 / 1000000, 0], [54977772 / 10000000, -(243008 / 10000000), 0]⟩,
          ⟨70, [1480418 / 10000, 2553291 / 1000000, 0], [7207307 / 1000000, -(335265 / 10000000), 0]⟩]⟩]

/-- `GE2012_50`, src/HPWHpresets.cc:656-723. -/
def GE2012_50 : Preset where
  n := 11
  k := 3
  setpoint := F_TO_C 127
  volume_L := 172
  UA := 68 / 10
  mixesOnDraw := true
  src := ![⟨{ element 8 4200 with
          isVIP := true
          turnOn := [Logics.topThird (dF_TO_dC 28)]
          followedBy := some 1 }, .none⟩,
    ⟨{ SourceCfg.blank (.condenser { CondCfg.blank with
            configuration := .wrapped
            maxSetpoint := maxOutletR134A
            hysteresis := dF_TO_dC 4 }) with
          heatDist := condensity [1 / 5, 1 / 5, 1 / 5, 1 / 5, 1 / 5, 0, 0, 0, 0, 0, 0, 0]
          minT := F_TO_C 45
          maxT := F_TO_C 120
          turnOn := [Logics.bottomThird (dF_TO_dC 40),
              Logics.topNode (dF_TO_dC (52 / 10))]
          shutOff := [Logics.largeDraw (F_TO_C 65)]
          backup := some 2
          followedBy := some 2 },
        .polys
         [⟨47, [3 / 10 * 1000, 159 / 100000 * 1000, 107 / 100000000 * 1000], [47 / 10, -(21 / 1000), 0]⟩,
          ⟨67, [378 / 1000 * 1000, 121 / 100000 * 1000, 216 / 100000000 * 1000], [48 / 10, -(167 / 10000), 0]⟩]⟩,
    ⟨{ element 0 4200 with
          turnOn := [Logics.bottomThird (dF_TO_dC 40)]
          backup := some 1 }, .none⟩]

/-- `GE2014STDMode_50`, src/HPWHpresets.cc:2722-2779. -/
def GE2014STDMode_50 : Preset where
  n := 11
  k := 3
  setpoint := F_TO_C 127
  volume_L := GAL_TO_L 45
  UA := 65 / 10
  mixesOnDraw := true
  src := ![⟨{ element 6 4500 with
          isVIP := true
          turnOn := [Logics.topThird (dF_TO_dC (196605 / 10000))]
          followedBy := some 1 }, .none⟩,
    ⟨{ element 0 4000 with
          heatDist := condensity [0, 2 / 10, 8 / 10, 0, 0, 0, 0, 0, 0, 0, 0, 0]
          shutOff := [Logics.bottomTwelfthMaxTemp (F_TO_C (861111 / 10000))]
          backup := some 2
          followedBy := some 2 }, .none⟩,
    ⟨{ SourceCfg.blank (.condenser { CondCfg.blank with
            configuration := .wrapped
            maxSetpoint := maxOutletR134A
            hysteresis := dF_TO_dC 2 }) with
          heatDist := condensity [1, 0, 0]
          minT := F_TO_C 37
          maxT := F_TO_C 120
          turnOn := [Logics.bottomThird (dF_TO_dC (336883 / 10000)),
              Logics.topNode (dF_TO_dC (12392 / 1000))]
          backup := some 1 },
        .polys
         [⟨50, [187064124 / 1000000, 1939747 / 1000000, 0], [54977772 / 10000000, -(243008 / 10000000), 0]⟩,
          ⟨70, [1480418 / 10000, 2553291 / 1000000, 0], [7207307 / 1000000, -(335265 / 10000000), 0]⟩]⟩]

/-- `GE2014STDMode_80`, src/HPWHpresets.cc:2780-2833. -/
def GE2014STDMode_80 : Preset where
  n := 11
  k := 3
  setpoint := F_TO_C 127
  volume_L := GAL_TO_L (754 / 10)
  UA := 10
  mixesOnDraw := true
  src := ![⟨{ element 6 4500 with
          isVIP := true
          turnOn := [Logics.topThird (dF_TO_dC (196605 / 10000))]
          followedBy := some 1 }, .none⟩,
    ⟨{ element 0 4000 with
          heatDist := condensity [0, 2 / 10, 8 / 10, 0, 0, 0, 0, 0, 0, 0, 0, 0]
          shutOff := [Logics.bottomTwelfthMaxTemp (F_TO_C (861111 / 10000))]
          backup := some 2
          followedBy := some 2 }, .none⟩,
    ⟨{ SourceCfg.blank (.condenser { CondCfg.blank with
            maxSetpoint := maxOutletR134A }) with
          heatDist := condensity [1, 0, 0]
          minT := F_TO_C 37
          turnOn := [Logics.bottomThird (dF_TO_dC (336883 / 10000)),
              Logics.topNode (dF_TO_dC (12392 / 1000))]
          backup := some 1 },
        .polys
         [⟨50, [187064124 / 1000000, 1939747 / 1000000, 0], [54977772 / 10000000, -(243008 / 10000000), 0]⟩,
          ⟨70, [1480418 / 10000, 2553291 / 1000000, 0], [7207307 / 1000000, -(335265 / 10000000), 0]⟩]⟩]

/-- `GE2014_50`, src/HPWHpresets.cc:2834-2894. -/
def GE2014_50 : Preset where
  n := 11
  k := 3
  setpoint := F_TO_C 127
  volume_L := GAL_TO_L 45
  UA := 65 / 10
  mixesOnDraw := true
  src := ![⟨{ element 6 4500 with
          isVIP := true
          turnOn := [Logics.topThird (dF_TO_dC 20)]
          shutOff := [Logics.topNodeMaxTemp (F_TO_C (1166358 / 10000))]
          followedBy := some 1 }, .none⟩,
    ⟨{ element 0 4000 with
          heatDist := condensity [0, 2 / 10, 8 / 10, 0, 0, 0, 0, 0, 0, 0, 0, 0]
          turnOn := [Logics.thirdSixth (dF_TO_dC 60)]
          shutOff := [Logics.bottomTwelfthMaxTemp (F_TO_C 80)]
          backup := some 2
          followedBy := some 2 }, .none⟩,
    ⟨{ SourceCfg.blank (.condenser { CondCfg.blank with
            configuration := .wrapped
            maxSetpoint := maxOutletR134A
            hysteresis := dF_TO_dC 2 }) with
          heatDist := condensity [1, 0, 0]
          minT := F_TO_C 37
          maxT := F_TO_C 120
          turnOn := [Logics.bottomThird (dF_TO_dC (336883 / 10000)),
              Logics.topNode (dF_TO_dC (110648 / 10000))]
          backup := some 1 },
        .polys
         [⟨50, [187064124 / 1000000, 1939747 / 1000000, 0], [54977772 / 10000000, -(243008 / 10000000), 0]⟩,
          ⟨70, [1480418 / 10000, 2553291 / 1000000, 0], [7207307 / 1000000, -(335265 / 10000000), 0]⟩]⟩]

/-- `GE2014_80`, src/HPWHpresets.cc:2895-2956. -/
def GE2014_80 : Preset where
  n := 11
  k := 3
  setpoint := F_TO_C 127
  volume_L := GAL_TO_L (754 / 10)
  UA := 10
  mixesOnDraw := true
  src := ![⟨{ element 6 4500 with
          isVIP := true
          turnOn := [Logics.topThird (dF_TO_dC 20)]
          shutOff := [Logics.topNodeMaxTemp (F_TO_C (1166358 / 10000))]
          followedBy := some 1 }, .none⟩,
    ⟨{ element 0 4000 with
          heatDist := condensity [0, 2 / 10, 8 / 10, 0, 0, 0, 0, 0, 0, 0, 0, 0]
          turnOn := [Logics.thirdSixth (dF_TO_dC 60)]
          shutOff := [Logics.bottomTwelfthMaxTemp (F_TO_C 80)]
          backup := some 2
          followedBy := some 2 }, .none⟩,
    ⟨{ SourceCfg.blank (.condenser { CondCfg.blank with
            configuration := .wrapped
            maxSetpoint := maxOutletR134A
            hysteresis := dF_TO_dC 2 }) with
          heatDist := condensity [1, 0, 0]
          minT := F_TO_C 37
          maxT := F_TO_C 120
          turnOn := [Logics.bottomThird (dF_TO_dC (336883 / 10000)),
              Logics.topNode (dF_TO_dC (110648 / 10000))]
          backup := some 1 },
        .polys
         [⟨50, [187064124 / 1000000, 1939747 / 1000000, 0], [54977772 / 10000000, -(243008 / 10000000), 0]⟩,
          ⟨70, [1480418 / 10000, 2553291 / 1000000, 0], [7207307 / 1000000, -(335265 / 10000000), 0]⟩]⟩]

/-- `GE2014_80DR`, src/HPWHpresets.cc:2957-3015. -/
def GE2014_80DR : Preset where
  n := 11
  k := 3
  setpoint := F_TO_C 127
  volume_L := GAL_TO_L (754 / 10)
  UA := 10
  mixesOnDraw := true
  src := ![⟨{ element 6 4500 with
          isVIP := true
          turnOn := [Logics.topThirdAbsolute (F_TO_C 87)]
          followedBy := some 1 }, .none⟩,
    ⟨{ element 0 4000 with
          heatDist := condensity [1, 0, 0, 0, 0, 0, 0, 0, 0, 0, 0, 0]
          turnOn := [Logics.thirdSixth (dF_TO_dC 60)]
          backup := some 2
          followedBy := some 2 }, .none⟩,
    ⟨{ SourceCfg.blank (.condenser { CondCfg.blank with
            configuration := .wrapped
            maxSetpoint := maxOutletR134A
            hysteresis := dF_TO_dC 2 }) with
          heatDist := condensity [1, 0, 0]
          minT := F_TO_C 37
          maxT := F_TO_C 120
          turnOn := [Logics.bottomThird (dF_TO_dC (336883 / 10000)),
              Logics.topNode (dF_TO_dC (110648 / 10000))]
          backup := some 1 },
        .polys
         [⟨50, [187064124 / 1000000, 1939747 / 1000000, 0], [54977772 / 10000000, -(243008 / 10000000), 0]⟩,
          ⟨70, [1480418 / 10000, 2553291 / 1000000, 0], [7207307 / 1000000, -(335265 / 10000000), 0]⟩]⟩]

/-- `Generic1`, src/HPWHpresets.cc:3490-3544. -/
def Generic1 : Preset where
  n := 11
  k := 3
  setpoint := F_TO_C 127
  volume_L := GAL_TO_L 50
  UA := 9
  mixesOnDraw := true
  src := ![⟨{ element 8 4500 with
          isVIP := true
          turnOn := [Logics.topThird (dF_TO_dC 35)]
          followedBy := some 1 }, .none⟩,
    ⟨{ element 0 4500 with
          turnOn := [Logics.bottomThird (dF_TO_dC 80)]
          shutOff := [Logics.bottomTwelfthMaxTemp (F_TO_C 110)]
          backup := some 2
          followedBy := some 2 }, .none⟩,
    ⟨{ SourceCfg.blank (.condenser { CondCfg.blank with
            configuration := .wrapped
            maxSetpoint := maxOutletR134A
            hysteresis := dF_TO_dC 2 }) with
          heatDist := condensity [1, 0, 0]
          minT := F_TO_C 45
          maxT := F_TO_C 120
          turnOn := [Logics.bottomThird (dF_TO_dC 40),
              Logics.topNode (dF_TO_dC 10)]
          shutOff := [Logics.largeDraw (F_TO_C 65)]
          backup := some 1 },
        .polys
         [⟨50, [47258616 / 100000, 20934 / 10000, 0], [2942642 / 1000000, -(125954 / 10000000), 0]⟩,
          ⟨67, [4395615 / 10000, 262997 / 100000, 0], [395076 / 100000, -(1638033 / 100000000), 0]⟩]⟩]

/-- `Generic2`, src/HPWHpresets.cc:3545-3601. -/
def Generic2 : Preset where
  n := 11
  k := 3
  setpoint := F_TO_C 127
  volume_L := GAL_TO_L 50
  UA := 75 / 10
  mixesOnDraw := true
  src := ![⟨{ element 6 4500 with
          isVIP := true
          turnOn := [Logics.topThird (dF_TO_dC 40)]
          followedBy := some 1 }, .none⟩,
    ⟨{ element 0 4500 with
          turnOn := [Logics.bottomThird (dF_TO_dC 80)]
          shutOff := [Logics.bottomTwelfthMaxTemp (F_TO_C 100)]
          backup := some 2
          followedBy := some 2 }, .none⟩,
    ⟨{ SourceCfg.blank (.condenser { CondCfg.blank with
            configuration := .wrapped
            maxSetpoint := maxOutletR134A
            hysteresis := dF_TO_dC 2 }) with
          heatDist := condensity [1, 0, 0]
          minT := F_TO_C 40
          maxT := F_TO_C 120
          turnOn := [Logics.bottomThird (dF_TO_dC 40),
              Logics.topNode (dF_TO_dC 10)]
          shutOff := [Logics.largeDraw (F_TO_C 60)]
          backup := some 1 },
        .polys
         [⟨50, [27258616 / 100000, 20934 / 10000, 0], [4042642 / 1000000, -(205954 / 10000000), 0]⟩,
          ⟨67, [2395615 / 10000, 262997 / 100000, 0], [525076 / 100000, -(2638033 / 100000000), 0]⟩]⟩]

/-- `Generic3`, src/HPWHpresets.cc:3602-3660. -/
def Generic3 : Preset where
  n := 11
  k := 3
  setpoint := F_TO_C 127
  volume_L := GAL_TO_L 50
  UA := 5
  mixesOnDraw := true
  src := ![⟨{ element 6 4500 with
          isVIP := true
          turnOn := [Logics.topThird (dF_TO_dC 40)]
          followedBy := some 1 }, .none⟩,
    ⟨{ element 0 4500 with
          heatDist := condensity [1, 0, 0, 0, 0, 0, 0, 0, 0, 0, 0, 0]
          turnOn := [Logics.bottomThird (dF_TO_dC 60)]
          backup := some 2
          followedBy := some 2 }, .none⟩,
    ⟨{ SourceCfg.blank (.condenser { CondCfg.blank with
            configuration := .wrapped
            maxSetpoint := maxOutletR134A
            hysteresis := dF_TO_dC 2 }) with
          heatDist := condensity [1, 0, 0]
          minT := F_TO_C 35
          maxT := F_TO_C 120
          turnOn := [Logics.bottomThird (dF_TO_dC 40),
              Logics.topNode (dF_TO_dC 10)]
          shutOff := [Logics.largeDraw (F_TO_C 55)]
          backup := some 1 },
        .polys
         [⟨50, [17258616 / 100000, 20934 / 10000, 0], [5242642 / 1000000, -(285954 / 10000000), 0]⟩,
          ⟨67, [1395615 / 10000, 262997 / 100000, 0], [675076 / 100000, -(3638033 / 100000000), 0]⟩]⟩]

/-- `GenericUEF217`, src/HPWHpresets.cc:4027-4079. -/
def GenericUEF217 : Preset where
  n := 11
  k := 3
  setpoint := F_TO_C 127
  volume_L := GAL_TO_L (585 / 10)
  UA := 85 / 10
  mixesOnDraw := true
  src := ![⟨{ element 6 4500 with
          isVIP := true
          turnOn := [Logics.topThird (dF_TO_dC 19)]
          followedBy := some 1 }, .none⟩,
    ⟨{ element 0 4500 with
          turnOn := [Logics.thirdSixth (F_TO_C 60)]
          shutOff := [Logics.bottomTwelfthMaxTemp (F_TO_C 85)]
          backup := some 2
          followedBy := some 2 }, .none⟩,
    ⟨{ SourceCfg.blank (.condenser { CondCfg.blank with
            configuration := .wrapped
            hysteresis := dF_TO_dC 2 }) with
          heatDist := condensity [1, 0, 0]
          minT := F_TO_C 45
          maxT := F_TO_C 120
          turnOn := [Logics.bottomThird (dF_TO_dC 30),
              Logics.topNode (dF_TO_dC 11)]
          backup := some 1 },
        .polys
         [⟨50, [187064124 / 1000000, 1939747 / 1000000, 0], [54977772 / 10000000, -(243008 / 10000000), 0]⟩,
          ⟨67, [1480418 / 10000, 2553291 / 1000000, 0], [6556322712161 / 1000000000000,
           -(3974367485016 / 100000000000000), 0]⟩]⟩]

/-- `Rheem2020Build40`, src/HPWHpresets.cc:3160-3243. -/
def Rheem2020Build40 : Preset where
  n := 11
  k := 3
  setpoint := F_TO_C 127
  volume_L := GAL_TO_L (361 / 10)
  UA := 95 / 10
  mixesOnDraw := true
  src := ![⟨{ element 8 4500 with
          isVIP := true
          turnOn := [Logics.topSixth (dF_TO_dC (204167 / 10000))]
          companion := some 2
          followedBy := some 2 }, .none⟩,
    ⟨{ element 0 4500 with
          shutOff := [Logics.bottomTwelfthMaxTemp (F_TO_C 100)]
          backup := some 2
          followedBy := some 2 }, .none⟩,
    ⟨{ SourceCfg.blank (.condenser { CondCfg.blank with
            configuration := .wrapped
            maxSetpoint := maxOutletR134A
            hysteresis := dF_TO_dC 1 }) with
          heatDist := condensity [2 / 10, 2 / 10, 2 / 10, 2 / 10, 2 / 10, 0, 0, 0, 0, 0, 0, 0]
          minT := F_TO_C 37
          maxT := F_TO_C 120
          turnOn := [Logics.bottomThird (dF_TO_dC 30),
              Logics.topNode (dF_TO_dC 9)]
          backup := some 1 },
        .polys
         [⟨50, [220, 8743 / 10000, 454 / 100000], [796064 / 100000, -(448 / 10000), 0]⟩,
          ⟨67, [275, -(6631 / 10000), 1571 / 100000], [845936 / 100000, -(4539 / 100000), 0]⟩]⟩]

/-- `Rheem2020Build50`, src/HPWHpresets.cc:3160-3243. -/
def Rheem2020Build50 : Preset where
  n := 11
  k := 3
  setpoint := F_TO_C 127
  volume_L := GAL_TO_L (451 / 10)
  UA := 855 / 100
  mixesOnDraw := true
  src := ![⟨{ element 8 4500 with
          isVIP := true
          turnOn := [Logics.topSixth (dF_TO_dC (204167 / 10000))]
          companion := some 2
          followedBy := some 2 }, .none⟩,
    ⟨{ element 0 4500 with
          shutOff := [Logics.bottomTwelfthMaxTemp (F_TO_C 100)]
          backup := some 2
          followedBy := some 2 }, .none⟩,
    ⟨{ SourceCfg.blank (.condenser { CondCfg.blank with
            configuration := .wrapped
            maxSetpoint := maxOutletR134A
            hysteresis := dF_TO_dC 1 }) with
          heatDist := condensity [2 / 10, 2 / 10, 2 / 10, 2 / 10, 2 / 10, 0, 0, 0, 0, 0, 0, 0]
          minT := F_TO_C 37
          maxT := F_TO_C 120
          turnOn := [Logics.bottomThird (dF_TO_dC 30),
              Logics.topNode (dF_TO_dC 9)]
          backup := some 1 },
        .polys
         [⟨50, [220, 8743 / 10000, 454 / 100000], [796064 / 100000, -(448 / 10000), 0]⟩,
          ⟨67, [275, -(6631 / 10000), 1571 / 100000], [845936 / 100000, -(4539 / 100000), 0]⟩]⟩]

/-- `Rheem2020Build65`, src/HPWHpresets.cc:3160-3243. -/
def Rheem2020Build65 : Preset where
  n := 11
  k := 3
  setpoint := F_TO_C 127
  volume_L := GAL_TO_L (585 / 10)
  UA := 1064 / 100
  mixesOnDraw := true
  src := ![⟨{ element 8 4500 with
          isVIP := true
          turnOn := [Logics.topSixth (dF_TO_dC (204167 / 10000))]
          companion := some 2
          followedBy := some 2 }, .none⟩,
    ⟨{ element 0 4500 with
          shutOff := [Logics.bottomTwelfthMaxTemp (F_TO_C 100)]
          backup := some 2
          followedBy := some 2 }, .none⟩,
    ⟨{ SourceCfg.blank (.condenser { CondCfg.blank with
            configuration := .wrapped
            maxSetpoint := maxOutletR134A
            hysteresis := dF_TO_dC 1 }) with
          heatDist := condensity [2 / 10, 2 / 10, 2 / 10, 2 / 10, 2 / 10, 0, 0, 0, 0, 0, 0, 0]
          minT := F_TO_C 37
          maxT := F_TO_C 120
          turnOn := [Logics.bottomThird (dF_TO_dC 30),
              Logics.topNode (dF_TO_dC 9)]
          backup := some 1 },
        .polys
         [⟨50, [220, 8743 / 10000, 454 / 100000], [796064 / 100000, -(448 / 10000), 0]⟩,
          ⟨67, [275, -(6631 / 10000), 1571 / 100000], [845936 / 100000, -(4539 / 100000), 0]⟩]⟩]

/-- `Rheem2020Build80`, src/HPWHpresets.cc:3160-3243. -/
def Rheem2020Build80 : Preset where
  n := 11
  k := 3
  setpoint := F_TO_C 127
  volume_L := GAL_TO_L 72
  UA := 1083 / 100
  mixesOnDraw := true
  src := ![⟨{ element 8 4500 with
          isVIP := true
          turnOn := [Logics.topSixth (dF_TO_dC (204167 / 10000))]
          companion := some 2
          followedBy := some 2 }, .none⟩,
    ⟨{ element 0 4500 with
          shutOff := [Logics.bottomTwelfthMaxTemp (F_TO_C 100)]
          backup := some 2
          followedBy := some 2 }, .none⟩,
    ⟨{ SourceCfg.blank (.condenser { CondCfg.blank with
            configuration := .wrapped
            maxSetpoint := maxOutletR134A
            hysteresis := dF_TO_dC 1 }) with
          heatDist := condensity [2 / 10, 2 / 10, 2 / 10, 2 / 10, 2 / 10, 0, 0, 0, 0, 0, 0, 0]
          minT := F_TO_C 37
          maxT := F_TO_C 120
          turnOn := [Logics.bottomThird (dF_TO_dC 30),
              Logics.topNode (dF_TO_dC 9)]
          backup := some 1 },
        .polys
         [⟨50, [220, 8743 / 10000, 454 / 100000], [796064 / 100000, -(448 / 10000), 0]⟩,
          ⟨67, [275, -(6631 / 10000), 1571 / 100000], [845936 / 100000, -(4539 / 100000), 0]⟩]⟩]

/-- `Rheem2020Prem40`, src/HPWHpresets.cc:3074-3157. -/
def Rheem2020Prem40 : Preset where
  n := 11
  k := 3
  setpoint := F_TO_C 127
  volume_L := GAL_TO_L (361 / 10)
  UA := 95 / 10
  mixesOnDraw := true
  src := ![⟨{ element 8 4500 with
          isVIP := true
          turnOn := [Logics.topSixth (dF_TO_dC (204167 / 10000))]
          companion := some 2
          followedBy := some 2 }, .none⟩,
    ⟨{ element 0 4500 with
          shutOff := [Logics.bottomTwelfthMaxTemp (F_TO_C 100)]
          backup := some 2
          followedBy := some 2 }, .none⟩,
    ⟨{ SourceCfg.blank (.condenser { CondCfg.blank with
            configuration := .wrapped
            maxSetpoint := maxOutletR134A
            hysteresis := dF_TO_dC 1 }) with
          heatDist := condensity [2 / 10, 2 / 10, 2 / 10, 2 / 10, 2 / 10, 0, 0, 0, 0, 0, 0, 0]
          minT := F_TO_C 37
          maxT := F_TO_C 120
          turnOn := [Logics.bottomThird (dF_TO_dC 32),
              Logics.topNode (dF_TO_dC 9)]
          backup := some 1 },
        .polys
         [⟨50, [250, -(10883 / 10000), 176 / 10000], [67 / 10, -(87 / 10000), -(2 / 10000)]⟩,
          ⟨67, [275, -(6631 / 10000), 1571 / 100000], [7, -(168 / 10000), -(1 / 10000)]⟩]⟩]

/-- `Rheem2020Prem50`, src/HPWHpresets.cc:3074-3157. -/
def Rheem2020Prem50 : Preset where
  n := 11
  k := 3
  setpoint := F_TO_C 127
  volume_L := GAL_TO_L (451 / 10)
  UA := 855 / 100
  mixesOnDraw := true
  src := ![⟨{ element 8 4500 with
          isVIP := true
          turnOn := [Logics.topSixth (dF_TO_dC (204167 / 10000))]
          companion := some 2
          followedBy := some 2 }, .none⟩,
    ⟨{ element 0 4500 with
          shutOff := [Logics.bottomTwelfthMaxTemp (F_TO_C 100)]
          backup := some 2
          followedBy := some 2 }, .none⟩,
    ⟨{ SourceCfg.blank (.condenser { CondCfg.blank with
            configuration := .wrapped
            maxSetpoint := maxOutletR134A
            hysteresis := dF_TO_dC 1 }) with
          heatDist := condensity [2 / 10, 2 / 10, 2 / 10, 2 / 10, 2 / 10, 0, 0, 0, 0, 0, 0, 0]
          minT := F_TO_C 37
          maxT := F_TO_C 120
          turnOn := [Logics.bottomThird (dF_TO_dC 32),
              Logics.topNode (dF_TO_dC 9)]
          backup := some 1 },
        .polys
         [⟨50, [250, -(10883 / 10000), 176 / 10000], [67 / 10, -(87 / 10000), -(2 / 10000)]⟩,
          ⟨67, [275, -(6631 / 10000), 1571 / 100000], [7, -(168 / 10000), -(1 / 10000)]⟩]⟩]

/-- `Rheem2020Prem65`, src/HPWHpresets.cc:3074-3157. -/
def Rheem2020Prem65 : Preset where
  n := 11
  k := 3
  setpoint := F_TO_C 127
  volume_L := GAL_TO_L (585 / 10)
  UA := 1064 / 100
  mixesOnDraw := true
  src := ![⟨{ element 8 4500 with
          isVIP := true
          turnOn := [Logics.topSixth (dF_TO_dC (204167 / 10000))]
          companion := some 2
          followedBy := some 2 }, .none⟩,
    ⟨{ element 0 4500 with
          shutOff := [Logics.bottomTwelfthMaxTemp (F_TO_C 100)]
          backup := some 2
          followedBy := some 2 }, .none⟩,
    ⟨{ SourceCfg.blank (.condenser { CondCfg.blank with
            configuration := .wrapped
            maxSetpoint := maxOutletR134A
            hysteresis := dF_TO_dC 1 }) with
          heatDist := condensity [2 / 10, 2 / 10, 2 / 10, 2 / 10, 2 / 10, 0, 0, 0, 0, 0, 0, 0]
          minT := F_TO_C 37
          maxT := F_TO_C 120
          turnOn := [Logics.bottomThird (dF_TO_dC 32),
              Logics.topNode (dF_TO_dC 9)]
          backup := some 1 },
        .polys
         [⟨50, [250, -(10883 / 10000), 176 / 10000], [67 / 10, -(87 / 10000), -(2 / 10000)]⟩,
          ⟨67, [275, -(6631 / 10000), 1571 / 100000], [7, -(168 / 10000), -(1 / 10000)]⟩]⟩]

/-- `Rheem2020Prem80`, src/HPWHpresets.cc:3074-3157. -/
def Rheem2020Prem80 : Preset where
  n := 11
  k := 3
  setpoint := F_TO_C 127
  volume_L := GAL_TO_L 72
  UA := 1083 / 100
  mixesOnDraw := true
  src := ![⟨{ element 8 4500 with
          isVIP := true
          turnOn := [Logics.topSixth (dF_TO_dC (204167 / 10000))]
          companion := some 2
          followedBy := some 2 }, .none⟩,
    ⟨{ element 0 4500 with
          shutOff := [Logics.bottomTwelfthMaxTemp (F_TO_C 100)]
          backup := some 2
          followedBy := some 2 }, .none⟩,
    ⟨{ SourceCfg.blank (.condenser { CondCfg.blank with
            configuration := .wrapped
            maxSetpoint := maxOutletR134A
            hysteresis := dF_TO_dC 1 }) with
          heatDist := condensity [2 / 10, 2 / 10, 2 / 10, 2 / 10, 2 / 10, 0, 0, 0, 0, 0, 0, 0]
          minT := F_TO_C 37
          maxT := F_TO_C 120
          turnOn := [Logics.bottomThird (dF_TO_dC 32),
              Logics.topNode (dF_TO_dC 9)]
          backup := some 1 },
        .polys
         [⟨50, [250, -(10883 / 10000), 176 / 10000], [67 / 10, -(87 / 10000), -(2 / 10000)]⟩,
          ⟨67, [275, -(6631 / 10000), 1571 / 100000], [7, -(168 / 10000), -(1 / 10000)]⟩]⟩]

/-- `RheemHB50`, src/HPWHpresets.cc:3384-3444. -/
def RheemHB50 : Preset where
  n := 11
  k := 3
  setpoint := F_TO_C 127
  volume_L := GAL_TO_L 45
  UA := 7
  mixesOnDraw := true
  src := ![⟨{ element 8 4200 with
          isVIP := true
          turnOn := [Logics.topSixth (dF_TO_dC (204167 / 10000))]
          followedBy := some 1 }, .none⟩,
    ⟨{ element 0 2250 with
          shutOff := [Logics.bottomTwelfthMaxTemp (F_TO_C (767747 / 10000))]
          backup := some 2
          followedBy := some 2 }, .none⟩,
    ⟨{ SourceCfg.blank (.condenser { CondCfg.blank with
            configuration := .wrapped
            maxSetpoint := maxOutletR134A
            hysteresis := dF_TO_dC 1 }) with
          heatDist := condensity [1, 0, 0]
          minT := F_TO_C 40
          maxT := F_TO_C 120
          turnOn := [Logics.bottomThird (dF_TO_dC 38),
              Logics.topNode (dF_TO_dC (132639 / 10000))]
          backup := some 1 },
        .polys
         [⟨47, [280, 497342 / 100000, 0], [5634009 / 1000000, -(29485 / 1000000), 0]⟩,
          ⟨67, [280, 535992 / 100000, 0], [63 / 10, -(3 / 100), 0]⟩]⟩]

/-- `RheemHBDR2250`, src/HPWHpresets.cc:2173-2271. -/
def RheemHBDR2250 : Preset where
  n := 23
  k := 3
  setpoint := F_TO_C 127
  volume_L := 171
  UA := 6
  mixesOnDraw := true
  src := ![⟨{ element 8 2250 with
          isVIP := true
          turnOn := [nodesLogic "top sixth absolute" [11, 12] (F_TO_C 105) true .less false]
          companion := some 2
          followedBy := some 1 }, .none⟩,
    ⟨{ element 0 2250 with
          shutOff := [Logics.bottomTwelfthMaxTemp (F_TO_C 100)]
          backup := some 2
          followedBy := some 2 }, .none⟩,
    ⟨{ SourceCfg.blank (.condenser { CondCfg.blank with
            configuration := .wrapped
            maxSetpoint := maxOutletR134A
            hysteresis := dF_TO_dC 2 }) with
          heatDist := condensity [1 / 5, 1 / 5, 1 / 5, 1 / 5, 1 / 5, 0, 0, 0, 0, 0, 0, 0]
          minT := F_TO_C 42
          maxT := F_TO_C 120
          turnOn := [Logics.bottomThird (dF_TO_dC 35),
              Logics.topNode (dF_TO_dC 9)]
          backup := some 1 },
        .polys
         [⟨50, [170, 202 / 100, 0], [593 / 100, -(27 / 1000), 0]⟩,
          ⟨70, [1445 / 10, 242 / 100, 0], [767 / 100, -(37 / 1000), 0]⟩,
          ⟨95, [941 / 10, 315 / 100, 0], [111 / 10, -(56 / 1000), 0]⟩]⟩]

/-- `RheemHBDR2265`, src/HPWHpresets.cc:2272-2376. -/
def RheemHBDR2265 : Preset where
  n := 23
  k := 3
  setpoint := F_TO_C 127
  volume_L := 2214 / 10
  UA := 8
  mixesOnDraw := true
  src := ![⟨{ element 8 2250 with
          isVIP := true
          turnOn := [nodesLogic "top sixth absolute" [11, 12] (F_TO_C 105) true .less false]
          companion := some 2
          followedBy := some 1 }, .none⟩,
    ⟨{ element 0 2250 with
          shutOff := [Logics.bottomTwelfthMaxTemp (F_TO_C 100)]
          backup := some 2
          followedBy := some 2 }, .none⟩,
    ⟨{ SourceCfg.blank (.condenser { CondCfg.blank with
            configuration := .wrapped
            maxSetpoint := maxOutletR134A
            hysteresis := dF_TO_dC 2 }) with
          heatDist := condensity [1, 0, 0]
          minT := F_TO_C 42
          maxT := F_TO_C 120
          turnOn := [Logics.bottomThird (dF_TO_dC 35),
              Logics.topNode (dF_TO_dC 9)]
          backup := some 1 },
        .polys
         [⟨50, [170, 202 / 100, 0], [593 / 100, -(27 / 1000), 0]⟩,
          ⟨70, [1445 / 10, 242 / 100, 0], [767 / 100, -(37 / 1000), 0]⟩,
          ⟨95, [941 / 10, 315 / 100, 0], [111 / 10, -(56 / 1000), 0]⟩]⟩]

/-- `RheemHBDR2280`, src/HPWHpresets.cc:2377-2476. -/
def RheemHBDR2280 : Preset where
  n := 23
  k := 3
  setpoint := F_TO_C 127
  volume_L := 2995 / 10
  UA := 9
  mixesOnDraw := true
  src := ![⟨{ element 8 2250 with
          isVIP := true
          turnOn := [nodesLogic "top sixth absolute" [11, 12] (F_TO_C 105) true .less false]
          companion := some 2
          followedBy := some 1 }, .none⟩,
    ⟨{ element 0 2250 with
          shutOff := [Logics.bottomTwelfthMaxTemp (F_TO_C 100)]
          backup := some 2
          followedBy := some 2 }, .none⟩,
    ⟨{ SourceCfg.blank (.condenser { CondCfg.blank with
            configuration := .wrapped
            maxSetpoint := maxOutletR134A
            hysteresis := dF_TO_dC 1 }) with
          heatDist := condensity [1, 0, 0, 0]
          minT := F_TO_C 42
          maxT := F_TO_C 120
          turnOn := [Logics.bottomThird (dF_TO_dC 35),
              Logics.topNode (dF_TO_dC 9)]
          backup := some 1 },
        .polys
         [⟨50, [170, 202 / 100, 0], [593 / 100, -(27 / 1000), 0]⟩,
          ⟨70, [1445 / 10, 242 / 100, 0], [767 / 100, -(37 / 1000), 0]⟩,
          ⟨95, [941 / 10, 315 / 100, 0], [111 / 10, -(56 / 1000), 0]⟩]⟩]

/-- `RheemHBDR4550`, src/HPWHpresets.cc:2173-2271. -/
def RheemHBDR4550 : Preset where
  n := 23
  k := 3
  setpoint := F_TO_C 127
  volume_L := 171
  UA := 6
  mixesOnDraw := true
  src := ![⟨{ element 8 4500 with
          isVIP := true
          turnOn := [nodesLogic "top sixth absolute" [11, 12] (F_TO_C 105) true .less false]
          companion := some 2
          followedBy := some 1 }, .none⟩,
    ⟨{ element 0 4500 with
          shutOff := [Logics.bottomTwelfthMaxTemp (F_TO_C 100)]
          backup := some 2
          followedBy := some 2 }, .none⟩,
    ⟨{ SourceCfg.blank (.condenser { CondCfg.blank with
            configuration := .wrapped
            maxSetpoint := maxOutletR134A
            hysteresis := dF_TO_dC 2 }) with
          heatDist := condensity [1 / 5, 1 / 5, 1 / 5, 1 / 5, 1 / 5, 0, 0, 0, 0, 0, 0, 0]
          minT := F_TO_C 42
          maxT := F_TO_C 120
          turnOn := [Logics.bottomThird (dF_TO_dC 35),
              Logics.topNode (dF_TO_dC 9)]
          backup := some 1 },
        .polys
         [⟨50, [170, 202 / 100, 0], [593 / 100, -(27 / 1000), 0]⟩,
          ⟨70, [1445 / 10, 242 / 100, 0], [767 / 100, -(37 / 1000), 0]⟩,
          ⟨95, [941 / 10, 315 / 100, 0], [111 / 10, -(56 / 1000), 0]⟩]⟩]

/-- `RheemHBDR4565`, src/HPWHpresets.cc:2272-2376. -/
def RheemHBDR4565 : Preset where
  n := 23
  k := 3
  setpoint := F_TO_C 127
  volume_L := 2214 / 10
  UA := 8
  mixesOnDraw := true
  src := ![⟨{ element 8 4500 with
          isVIP := true
          turnOn := [nodesLogic "top sixth absolute" [11, 12] (F_TO_C 105) true .less false]
          companion := some 2
          followedBy := some 1 }, .none⟩,
    ⟨{ element 0 4500 with
          shutOff := [Logics.bottomTwelfthMaxTemp (F_TO_C 100)]
          backup := some 2
          followedBy := some 2 }, .none⟩,
    ⟨{ SourceCfg.blank (.condenser { CondCfg.blank with
            configuration := .wrapped
            maxSetpoint := maxOutletR134A
            hysteresis := dF_TO_dC 2 }) with
          heatDist := condensity [1, 0, 0]
          minT := F_TO_C 42
          maxT := F_TO_C 120
          turnOn := [Logics.bottomThird (dF_TO_dC 35),
              Logics.topNode (dF_TO_dC 9)]
          backup := some 1 },
        .polys
         [⟨50, [170, 202 / 100, 0], [593 / 100, -(27 / 1000), 0]⟩,
          ⟨70, [1445 / 10, 242 / 100, 0], [767 / 100, -(37 / 1000), 0]⟩,
          ⟨95, [941 / 10, 315 / 100, 0], [111 / 10, -(56 / 1000), 0]⟩]⟩]

/-- `RheemHBDR4580`, src/HPWHpresets.cc:2377-2476. -/
def RheemHBDR4580 : Preset where
  n := 23
  k := 3
  setpoint := F_TO_C 127
  volume_L := 2995 / 10
  UA := 9
  mixesOnDraw := true
  src := ![⟨{ element 8 4500 with
          isVIP := true
          turnOn := [nodesLogic "top sixth absolute" [11, 12] (F_TO_C 105) true .less false]
          companion := some 2
          followedBy := some 1 }, .none⟩,
    ⟨{ element 0 4500 with
          shutOff := [Logics.bottomTwelfthMaxTemp (F_TO_C 100)]
          backup := some 2
          followedBy := some 2 }, .none⟩,
    ⟨{ SourceCfg.blank (.condenser { CondCfg.blank with
            configuration := .wrapped
            maxSetpoint := maxOutletR134A
            hysteresis := dF_TO_dC 1 }) with
          heatDist := condensity [1, 0, 0, 0]
          minT := F_TO_C 42
          maxT := F_TO_C 120
          turnOn := [Logics.bottomThird (dF_TO_dC 35),
              Logics.topNode (dF_TO_dC 9)]
          backup := some 1 },
        .polys
         [⟨50, [170, 202 / 100, 0], [593 / 100, -(27 / 1000), 0]⟩,
          ⟨70, [1445 / 10, 242 / 100, 0], [767 / 100, -(37 / 1000), 0]⟩,
          ⟨95, [941 / 10, 315 / 100, 0], [111 / 10, -(56 / 1000), 0]⟩]⟩]

/-- `RheemPlugInDedicated40`, src/HPWHpresets.cc:3336-3383. -/
def RheemPlugInDedicated40 : Preset where
  n := 11
  k := 1
  setpoint := F_TO_C 127
  volume_L := GAL_TO_L 36
  UA := 55 / 10
  mixesOnDraw := true
  src := ![⟨{ SourceCfg.blank (.condenser { CondCfg.blank with
            configuration := .wrapped
            maxSetpoint := maxOutletR134A
            hysteresis := dF_TO_dC 1 }) with
          heatDist := condensity [5 / 10, 5 / 10, 0]
          isVIP := true
          minT := F_TO_C 37
          maxT := F_TO_C 120
          turnOn := [Logics.bottomThird (dF_TO_dC 20),
              Logics.topNode (dF_TO_dC 9)] },
        .polys
         [⟨50, [52891 / 100, 48988 / 10000, 0], [43943 / 10000, -(12443 / 1000000), 0]⟩,
          ⟨95, [49403 / 100, 77266 / 10000, 0], [548189 / 100000, -(1604 / 100000), 0]⟩]⟩]

/-- `RheemPlugInDedicated50`, src/HPWHpresets.cc:3336-3383. -/
def RheemPlugInDedicated50 : Preset where
  n := 11
  k := 1
  setpoint := F_TO_C 127
  volume_L := GAL_TO_L 45
  UA := 633 / 100
  mixesOnDraw := true
  src := ![⟨{ SourceCfg.blank (.condenser { CondCfg.blank with
            configuration := .wrapped
            maxSetpoint := maxOutletR134A
            hysteresis := dF_TO_dC 1 }) with
          heatDist := condensity [5 / 10, 5 / 10, 0]
          isVIP := true
          minT := F_TO_C 37
          maxT := F_TO_C 120
          turnOn := [Logics.bottomThird (dF_TO_dC 20),
              Logics.topNode (dF_TO_dC 9)] },
        .polys
         [⟨50, [52891 / 100, 48988 / 10000, 0], [43943 / 10000, -(12443 / 1000000), 0]⟩,
          ⟨95, [49403 / 100, 77266 / 10000, 0], [548189 / 100000, -(1604 / 100000), 0]⟩]⟩]

/-- `RheemPlugInShared40`, src/HPWHpresets.cc:3244-3335. -/
def RheemPlugInShared40 : Preset where
  n := 11
  k := 1
  setpoint := F_TO_C 140
  volume_L := GAL_TO_L 36
  UA := 95 / 10
  mixesOnDraw := true
  src := ![⟨{ SourceCfg.blank (.condenser { CondCfg.blank with
            configuration := .wrapped
            maxSetpoint := maxOutletR134A
            hysteresis := dF_TO_dC 1 }) with
          heatDist := condensity [2 / 10, 2 / 10, 2 / 10, 2 / 10, 2 / 10, 0, 0, 0, 0, 0, 0, 0]
          isVIP := true
          minT := F_TO_C 37
          maxT := F_TO_C 120
          turnOn := [Logics.bottomThird (dF_TO_dC 32),
              Logics.topNode (dF_TO_dC 9)] },
        .polys
         [⟨50, [250, -(10883 / 10000), 176 / 10000], [67 / 10, -(87 / 10000), -(2 / 10000)]⟩,
          ⟨67, [275, -(6631 / 10000), 1571 / 100000], [7, -(168 / 10000), -(1 / 10000)]⟩]⟩]

/-- `RheemPlugInShared50`, src/HPWHpresets.cc:3244-3335. -/
def RheemPlugInShared50 : Preset where
  n := 11
  k := 1
  setpoint := F_TO_C 140
  volume_L := GAL_TO_L 45
  UA := 855 / 100
  mixesOnDraw := true
  src := ![⟨{ SourceCfg.blank (.condenser { CondCfg.blank with
            configuration := .wrapped
            maxSetpoint := maxOutletR134A
            hysteresis := dF_TO_dC 1 }) with
          heatDist := condensity [2 / 10, 2 / 10, 2 / 10, 2 / 10, 2 / 10, 0, 0, 0, 0, 0, 0, 0]
          isVIP := true
          minT := F_TO_C 37
          maxT := F_TO_C 120
          turnOn := [Logics.bottomThird (dF_TO_dC 32),
              Logics.topNode (dF_TO_dC 9)] },
        .polys
         [⟨50, [250, -(10883 / 10000), 176 / 10000], [67 / 10, -(87 / 10000), -(2 / 10000)]⟩,
          ⟨67, [275, -(6631 / 10000), 1571 / 100000], [7, -(168 / 10000), -(1 / 10000)]⟩]⟩]

/-- `RheemPlugInShared65`, src/HPWHpresets.cc:3244-3335. -/
def RheemPlugInShared65 : Preset where
  n := 11
  k := 1
  setpoint := F_TO_C 127
  volume_L := GAL_TO_L (585 / 10)
  UA := 1064 / 100
  mixesOnDraw := true
  src := ![⟨{ SourceCfg.blank (.condenser { CondCfg.blank with
            configuration := .wrapped
            maxSetpoint := maxOutletR134A
            hysteresis := dF_TO_dC 1 }) with
          heatDist := condensity [2 / 10, 2 / 10, 2 / 10, 2 / 10, 2 / 10, 0, 0, 0, 0, 0, 0, 0]
          isVIP := true
          minT := F_TO_C 37
          maxT := F_TO_C 120
          turnOn := [Logics.bottomThird (dF_TO_dC 32),
              Logics.topNode (dF_TO_dC 9)] },
        .polys
         [⟨50, [250, -(10883 / 10000), 176 / 10000], [67 / 10, -(87 / 10000), -(2 / 10000)]⟩,
          ⟨67, [275, -(6631 / 10000), 1571 / 100000], [7, -(168 / 10000), -(1 / 10000)]⟩]⟩]

/-- `RheemPlugInShared80`, src/HPWHpresets.cc:3244-3335. -/
def RheemPlugInShared80 : Preset where
  n := 11
  k := 1
  setpoint := F_TO_C 127
  volume_L := GAL_TO_L 72
  UA := 1083 / 100
  mixesOnDraw := true
  src := ![⟨{ SourceCfg.blank (.condenser { CondCfg.blank with
            configuration := .wrapped
            maxSetpoint := maxOutletR134A
            hysteresis := dF_TO_dC 1 }) with
          heatDist := condensity [2 / 10, 2 / 10, 2 / 10, 2 / 10, 2 / 10, 0, 0, 0, 0, 0, 0, 0]
          isVIP := true
          minT := F_TO_C 37
          maxT := F_TO_C 120
          turnOn := [Logics.bottomThird (dF_TO_dC 32),
              Logics.topNode (dF_TO_dC 9)] },
        .polys
         [⟨50, [250, -(10883 / 10000), 176 / 10000], [67 / 10, -(87 / 10000), -(2 / 10000)]⟩,
          ⟨67, [275, -(6631 / 10000), 1571 / 100000], [7, -(168 / 10000), -(1 / 10000)]⟩]⟩]

/-- `Stiebel220E`, src/HPWHpresets.cc:3445-3489. -/
def Stiebel220E : Preset where
  n := 11
  k := 2
  setpoint := F_TO_C 127
  volume_L := GAL_TO_L 56
  UA := 9
  mixesOnDraw := false
  src := ![⟨{ SourceCfg.blank (.condenser { CondCfg.blank with
            configuration := .wrapped
            maxSetpoint := maxOutletR134A
            hysteresis := 0 }) with
          heatDist := condensity [0, 12 / 100, 22 / 100, 22 / 100, 22 / 100, 22 / 100, 0, 0, 0, 0, 0, 0]
          depressesTemperature := false
          minT := F_TO_C 32
          maxT := F_TO_C 120
          turnOn := [Logics.thirdSixth (dF_TO_dC (65509 / 10000))]
          shutOff := [Logics.bottomTwelfthMaxTemp (F_TO_C 100)]
          backup := some 1 },
        .polys
         [⟨50, [29555337 / 100000, 228518 / 100000, 0], [5744118 / 1000000, -(25946 / 1000000), 0]⟩,
          ⟨67, [2822126 / 10000, 282001 / 100000, 0], [8012112 / 1000000, -(39394 / 1000000), 0]⟩]⟩,
    ⟨element 0 1500, .none⟩]

/-- `UEF2generic`, src/HPWHpresets.cc:3661-3716. -/
def UEF2generic : Preset where
  n := 11
  k := 3
  setpoint := F_TO_C 127
  volume_L := GAL_TO_L 45
  UA := 65 / 10
  mixesOnDraw := true
  src := ![⟨{ element 6 4500 with
          isVIP := true
          turnOn := [Logics.topThird (dF_TO_dC (186605 / 10000))]
          followedBy := some 1 }, .none⟩,
    ⟨{ element 0 4000 with
          heatDist := condensity [0, 2 / 10, 8 / 10, 0, 0, 0, 0, 0, 0, 0, 0, 0]
          shutOff := [Logics.bottomTwelfthMaxTemp (F_TO_C (861111 / 10000))]
          backup := some 2
          followedBy := some 2 }, .none⟩,
    ⟨{ SourceCfg.blank (.condenser { CondCfg.blank with
            configuration := .wrapped
            maxSetpoint := maxOutletR134A
            hysteresis := dF_TO_dC 2 }) with
          heatDist := condensity [1, 0, 0]
          minT := F_TO_C 37
          maxT := F_TO_C 120
          turnOn := [Logics.bottomThird (dF_TO_dC (336883 / 10000)),
              Logics.topNode (dF_TO_dC (12392 / 1000))]
          backup := some 1 },
        .polys
         [⟨50, [187064124 / 1000000, 1939747 / 1000000, 0], [429 / 100, -(243008 / 10000000), 0]⟩,
          ⟨70, [1480418 / 10000, 2553291 / 1000000, 0], [561 / 100, -(335265 / 10000000), 0]⟩]⟩]

/-- `LG_APHWC50`, src/HPWHpresets.cc:4251-4349. -/
def LG_APHWC50 : Preset where
  n := 11
  k := 3
  setpoint := F_TO_C 125
  volume_L := GAL_TO_L (528 / 10)
  UA := 778 / 100
  mixesOnDraw := false
  src := ![⟨{ element 8 5000 with
          isVIP := true
          turnOn := [Logics.topThird (dF_TO_dC 39)]
          companion := some 2
          followedBy := some 2 }, .none⟩,
    ⟨{ element 0 5000 with
          backup := some 2
          followedBy := some 2 }, .none⟩,
    ⟨{ SourceCfg.blank (.condenser { CondCfg.blank with
            configuration := .wrapped
            maxSetpoint := maxOutletR134A
            hysteresis := dF_TO_dC 1 }) with
          heatDist := condensity [17 / 100, 166 / 1000, 166 / 1000, 166 / 1000, 166 / 1000, 166 / 1000, 0, 0, 0, 0,
           0, 0]
          minT := F_TO_C 23
          maxT := F_TO_C 120
          turnOn := [Logics.bottomThird (dF_TO_dC (529 / 10)),
              Logics.topNode (dF_TO_dC 9)]
          backup := some 1 },
        .polys
         [⟨50, [3558 / 10 - 21 / 10 * (124 - 0), 21 / 10, 0], [313 / 100 - (-(1 / 100)) * (124 - 0), -(1 / 100), 0]⟩,
          ⟨675 / 10, [272 - 21 / 10 * (124 - 0), 21 / 10, 0], [425 / 100 - (-(1 / 100)) * (124 - 0), -(1 / 100), 0]⟩,
          ⟨95, [2605 / 10 - 21 / 10 * (124 - 0), 21 / 10, 0], [656 / 100 - (-(1 / 100)) * (124 - 0), -(1 / 100),
           0]⟩]⟩]

/-- `LG_APHWC80`, src/HPWHpresets.cc:4251-4349. -/
def LG_APHWC80 : Preset where
  n := 11
  k := 3
  setpoint := F_TO_C 125
  volume_L := GAL_TO_L 72
  UA := 1083 / 100
  mixesOnDraw := false
  src := ![⟨{ element 8 5000 with
          isVIP := true
          turnOn := [Logics.topThird (dF_TO_dC 39)]
          companion := some 2
          followedBy := some 2 }, .none⟩,
    ⟨{ element 0 5000 with
          backup := some 2
          followedBy := some 2 }, .none⟩,
    ⟨{ SourceCfg.blank (.condenser { CondCfg.blank with
            configuration := .wrapped
            maxSetpoint := maxOutletR134A
            hysteresis := dF_TO_dC 1 }) with
          heatDist := condensity [17 / 100, 166 / 1000, 166 / 1000, 166 / 1000, 166 / 1000, 166 / 1000, 0, 0, 0, 0,
           0, 0]
          minT := F_TO_C 23
          maxT := F_TO_C 120
          turnOn := [Logics.bottomThird (dF_TO_dC (529 / 10)),
              Logics.topNode (dF_TO_dC 9)]
          backup := some 1 },
        .polys
         [⟨50, [3558 / 10 - 21 / 10 * (124 - 0), 21 / 10, 0], [313 / 100 - (-(1 / 100)) * (124 - 0), -(1 / 100), 0]⟩,
          ⟨675 / 10, [272 - 21 / 10 * (124 - 0), 21 / 10, 0], [425 / 100 - (-(1 / 100)) * (124 - 0), -(1 / 100), 0]⟩,
          ⟨95, [2605 / 10 - 21 / 10 * (124 - 0), 21 / 10, 0], [656 / 100 - (-(1 / 100)) * (124 - 0), -(1 / 100),
           0]⟩]⟩]

/-- `BradfordWhiteAeroThermRE2H50`, src/HPWHpresets.cc:4156-4250. -/
def BradfordWhiteAeroThermRE2H50 : Preset where
  n := 11
  k := 3
  setpoint := F_TO_C 127
  volume_L := GAL_TO_L 45
  UA := 68373 / 10000
  mixesOnDraw := false
  src := ![⟨{ element 6 4000 with
          isVIP := true
          turnOn := [Logics.fourthSixth (dF_TO_dC 32)]
          followedBy := some 1 }, .none⟩,
    ⟨{ element 0 4000 with
          heatDist := condensity [0, 2 / 10, 8 / 10, 0, 0, 0, 0, 0, 0, 0, 0, 0]
          shutOff := [Logics.bottomTwelfthMaxTemp (F_TO_C (861 / 10))]
          backup := some 2
          followedBy := some 2 }, .none⟩,
    ⟨{ SourceCfg.blank (.condenser { CondCfg.blank with
            configuration := .wrapped
            maxSetpoint := maxOutletR134A
            hysteresis := dF_TO_dC 2 }) with
          heatDist := condensity [1, 0, 0]
          minT := F_TO_C 37
          maxT := F_TO_C 120
          turnOn := [Logics.bottomThird (dF_TO_dC 25),
              Logics.topNode (dF_TO_dC (12392 / 1000))]
          backup := some 1 },
        .polys
         [⟨50, [120, 245 / 100, 0], [63 / 10, -(3 / 100), 0]⟩,
          ⟨70, [124, 245 / 100, 0], [68 / 10, -(3 / 100), 0]⟩]⟩]

/-- `BradfordWhiteAeroThermRE2H65`, src/HPWHpresets.cc:4156-4250. -/
def BradfordWhiteAeroThermRE2H65 : Preset where
  n := 11
  k := 3
  setpoint := F_TO_C 127
  volume_L := GAL_TO_L 64
  UA := 67292 / 10000
  mixesOnDraw := false
  src := ![⟨{ element 6 4000 with
          isVIP := true
          turnOn := [Logics.fourthSixth (dF_TO_dC 32)]
          followedBy := some 1 }, .none⟩,
    ⟨{ element 0 4000 with
          heatDist := condensity [0, 2 / 10, 8 / 10, 0, 0, 0, 0, 0, 0, 0, 0, 0]
          shutOff := [Logics.bottomTwelfthMaxTemp (F_TO_C (861 / 10))]
          backup := some 2
          followedBy := some 2 }, .none⟩,
    ⟨{ SourceCfg.blank (.condenser { CondCfg.blank with
            configuration := .wrapped
            maxSetpoint := maxOutletR134A
            hysteresis := dF_TO_dC 2 }) with
          heatDist := condensity [1, 0, 0]
          minT := F_TO_C 37
          maxT := F_TO_C 120
          turnOn := [Logics.bottomThird (dF_TO_dC 25),
              Logics.topNode (dF_TO_dC (12392 / 1000))]
          backup := some 1 },
        .polys
         [⟨50, [120, 245 / 100, 0], [63 / 10, -(3 / 100), 0]⟩,
          ⟨70, [124, 245 / 100, 0], [68 / 10, -(3 / 100), 0]⟩]⟩]

/-- `BradfordWhiteAeroThermRE2H80`, src/HPWHpresets.cc:4156-4250. -/
def BradfordWhiteAeroThermRE2H80 : Preset where
  n := 11
  k := 3
  setpoint := F_TO_C 127
  volume_L := GAL_TO_L 75
  UA := 72217 / 10000
  mixesOnDraw := false
  src := ![⟨{ element 6 4000 with
          isVIP := true
          turnOn := [Logics.fourthSixth (dF_TO_dC 32)]
          followedBy := some 1 }, .none⟩,
    ⟨{ element 0 4000 with
          heatDist := condensity [0, 2 / 10, 8 / 10, 0, 0, 0, 0, 0, 0, 0, 0, 0]
          shutOff := [Logics.bottomTwelfthMaxTemp (F_TO_C (861 / 10))]
          backup := some 2
          followedBy := some 2 }, .none⟩,
    ⟨{ SourceCfg.blank (.condenser { CondCfg.blank with
            configuration := .wrapped
            maxSetpoint := maxOutletR134A
            hysteresis := dF_TO_dC 2 }) with
          heatDist := condensity [1, 0, 0]
          minT := F_TO_C 37
          maxT := F_TO_C 120
          turnOn := [Logics.bottomThird (dF_TO_dC 25),
              Logics.topNode (dF_TO_dC (12392 / 1000))]
          backup := some 1 },
        .polys
         [⟨50, [120, 245 / 100, 0], [63 / 10, -(3 / 100), 0]⟩,
          ⟨70, [124, 245 / 100, 0], [68 / 10, -(3 / 100), 0]⟩]⟩]

/-- `StorageTank`, src/HPWHpresets.cc:448-462. -/
def StorageTank : Preset where
  n := 11
  k := 0
  setpoint := 800
  volume_L := GAL_TO_L 80
  UA := 10
  volumeFixed := false
  mixesOnDraw := false
  initial := some (F_TO_C 127)
  isStorageTank := true
  src := ![]

/-- `Sanco43`, src/HPWHpresets.cc:2108-2172. -/
def Sanco43 : Preset where
  n := 95
  k := 1
  setpoint := 65
  volume_L := 160
  UA := 5
  mixesOnDraw := false
  setpointFixed := true
  src := ![⟨{ SourceCfg.blank (.condenser { CondCfg.blank with
            configuration := .external
            isMultipass := false
            maxSetpoint := maxOutletR744
            hysteresis := 4 }) with
          heatDist := condensity [1, 0, 0, 0, 0, 0, 0, 0, 0, 0, 0, 0]
          isVIP := true
          depressesTemperature := false
          minT := F_TO_C (-25)
          externalOutlet := 0
          externalInlet := 95
          turnOn := [nodesLogic "fourth node absolute" [4] (F_TO_C 113) true .less false,
              Logics.standby (dF_TO_dC (82639 / 10000))]
          shutOff := [nodesLogic "bottom twelfth absolute" [1] (F_TO_C 135) true .greater true]
          standby := some (nodesLogic "bottom node absolute" [0] (F_TO_C 113) true .greater false) },
        .polys
         [⟨17, [1650, 55 / 10, 0], [32 / 10, -(15 / 1000), 0]⟩,
          ⟨35, [1100, 4, 0], [37 / 10, -(15 / 1000), 0]⟩,
          ⟨50, [880, 31 / 10, 0], [525 / 100, -(25 / 1000), 0]⟩,
          ⟨67, [740, 4, 0], [62 / 10, -(3 / 100), 0]⟩,
          ⟨95, [790, 2, 0], [715 / 100, -(4 / 100), 0]⟩]⟩]

/-- `Sanco83`, src/HPWHpresets.cc:2019-2107. -/
def Sanco83 : Preset where
  n := 95
  k := 1
  setpoint := 65
  volume_L := 315
  UA := 7
  mixesOnDraw := false
  setpointFixed := true
  src := ![⟨{ SourceCfg.blank (.condenser { CondCfg.blank with
            configuration := .external
            isMultipass := false
            maxSetpoint := maxOutletR744
            hysteresis := 4 }) with
          heatDist := condensity [1, 0, 0, 0, 0, 0, 0, 0, 0, 0, 0, 0]
          isVIP := true
          depressesTemperature := false
          minT := F_TO_C (-25)
          externalOutlet := 0
          externalInlet := 95
          turnOn := [nodesLogic "eighth node absolute" [8] (F_TO_C 113) true .less false,
              Logics.standby (dF_TO_dC (82639 / 10000))]
          shutOff := [nodesLogic "bottom node absolute" [1] (F_TO_C 135) true .greater true]
          standby := some (nodesLogic "bottom node absolute" [0] (F_TO_C 113) true .greater false) },
        .polys
         [⟨17, [1650, 55 / 10, 0], [32 / 10, -(15 / 1000), 0]⟩,
          ⟨35, [1100, 4, 0], [37 / 10, -(15 / 1000), 0]⟩,
          ⟨50, [880, 31 / 10, 0], [525 / 100, -(25 / 1000), 0]⟩,
          ⟨67, [740, 4, 0], [62 / 10, -(3 / 100), 0]⟩,
          ⟨95, [790, 2, 0], [715 / 100, -(4 / 100), 0]⟩]⟩]

/-- `SancoGS3_45HPA_US_SP`, src/HPWHpresets.cc:2019-2107. -/
def SancoGS3_45HPA_US_SP : Preset where
  n := 95
  k := 1
  setpoint := 65
  volume_L := 315
  UA := 7
  volumeFixed := false
  mixesOnDraw := false
  setpointFixed := true
  src := ![⟨{ SourceCfg.blank (.condenser { CondCfg.blank with
            configuration := .external
            isMultipass := false
            maxSetpoint := maxOutletR744
            hysteresis := 4 }) with
          heatDist := condensity [1, 0, 0, 0, 0, 0, 0, 0, 0, 0, 0, 0]
          isVIP := true
          depressesTemperature := false
          minT := F_TO_C (-25)
          externalOutlet := 0
          externalInlet := 95
          turnOn := [nodesLogic "eighth node absolute" [8] (F_TO_C 113) true .less false]
          shutOff := [nodesLogic "bottom node absolute" [1] (F_TO_C 135) true .greater true] },
        .polys
         [⟨17, [1650, 55 / 10, 0], [32 / 10, -(15 / 1000), 0]⟩,
          ⟨35, [1100, 4, 0], [37 / 10, -(15 / 1000), 0]⟩,
          ⟨50, [880, 31 / 10, 0], [525 / 100, -(25 / 1000), 0]⟩,
          ⟨67, [740, 4, 0], [62 / 10, -(3 / 100), 0]⟩,
          ⟨95, [790, 2, 0], [715 / 100, -(4 / 100), 0]⟩]⟩]

/-- `Sanco119`, src/HPWHpresets.cc:2019-2107. -/
def Sanco119 : Preset where
  n := 95
  k := 1
  setpoint := 65
  volume_L := GAL_TO_L 119
  UA := 9
  mixesOnDraw := false
  setpointFixed := true
  src := ![⟨{ SourceCfg.blank (.condenser { CondCfg.blank with
            configuration := .external
            isMultipass := false
            maxSetpoint := maxOutletR744
            hysteresis := 4 }) with
          heatDist := condensity [1, 0, 0, 0, 0, 0, 0, 0, 0, 0, 0, 0]
          isVIP := true
          depressesTemperature := false
          minT := F_TO_C (-25)
          externalOutlet := 0
          externalInlet := 95
          turnOn := [nodesLogic "eighth node absolute" [8] (F_TO_C 113) true .less false,
              Logics.standby (dF_TO_dC (82639 / 10000))]
          shutOff := [nodesLogic "bottom node absolute" [1] (F_TO_C 135) true .greater true]
          standby := some (nodesLogic "bottom node absolute" [0] (F_TO_C 113) true .greater false) },
        .polys
         [⟨17, [1650, 55 / 10, 0], [32 / 10, -(15 / 1000), 0]⟩,
          ⟨35, [1100, 4, 0], [37 / 10, -(15 / 1000), 0]⟩,
          ⟨50, [880, 31 / 10, 0], [525 / 100, -(25 / 1000), 0]⟩,
          ⟨67, [740, 4, 0], [62 / 10, -(3 / 100), 0]⟩,
          ⟨95, [790, 2, 0], [715 / 100, -(4 / 100), 0]⟩]⟩]

/-- `TamScalable_SP`, src/HPWHpresets.cc:3796-3906. -/
def TamScalable_SP : Preset where
  n := 23
  k := 3
  setpoint := F_TO_C 135
  volume_L := 315
  UA := 7
  volumeFixed := false
  mixesOnDraw := false
  canScale := true
  resize := some 600
  src := ![⟨{ element 9 (1 * 30000) with
          isVIP := true
          turnOn := [Logics.topThird (dF_TO_dC 15)]
          companion := some 2
          followedBy := some 1 }, .none⟩,
    ⟨{ element 0 (1 * 30000) with
          backup := some 2
          followedBy := some 2 }, .none⟩,
    ⟨{ SourceCfg.blank (.condenser { CondCfg.blank with
            configuration := .external
            isMultipass := false
            maxSetpoint := maxOutletR134A
            hysteresis := 0
            doDefrost := true
            defrostMap := standardDefrost }) with
          heatDist := condensity [1, 0, 0, 0, 0, 0, 0, 0, 0, 0, 0, 0]
          isVIP := true
          depressesTemperature := false
          minT := F_TO_C 40
          externalOutlet := 0
          externalInlet := 23
          turnOn := [nodesLogic "fourth node" [4] (dF_TO_dC 15) false .less false]
          shutOff := [nodesLogic "lowest node" [1] (dF_TO_dC 15) false .greater true]
          backup := some 1 },
        .singlePass ⟨105, [136 / 10 * 1, 995 / 100000 * 1, (-(342 / 10000)) * 1, (-(14 / 1000)) * 1,
         (-(11 / 100000)) * 1, 26 / 100000 * 1, 232 / 1000000 * 1, 195 / 1000000 * 1, (-(34 / 100000)) * 1,
         53 / 10000000 * 1, 236 / 100000000 * 1],
          [1945 / 1000, 412 / 10000, -(112 / 10000), -(161 / 100000), 492 / 10000000, 348 / 10000000,
           -(323 / 10000000), -(166 / 1000000), 112 / 10000000, 392 / 10000000, -(352 / 1000000000)]⟩⟩]

/-- `TamScalable_SP_2X`, src/HPWHpresets.cc:3796-3906. -/
def TamScalable_SP_2X : Preset where
  n := 23
  k := 3
  setpoint := F_TO_C 135
  volume_L := 315
  UA := 7
  volumeFixed := false
  mixesOnDraw := false
  canScale := true
  resize := some 600
  src := ![⟨{ element 9 (2 * 30000) with
          isVIP := true
          turnOn := [Logics.topThird (dF_TO_dC 15)]
          companion := some 2
          followedBy := some 1 }, .none⟩,
    ⟨{ element 0 (2 * 30000) with
          backup := some 2
          followedBy := some 2 }, .none⟩,
    ⟨{ SourceCfg.blank (.condenser { CondCfg.blank with
            configuration := .external
            isMultipass := false
            maxSetpoint := maxOutletR134A
            hysteresis := 0
            doDefrost := true
            defrostMap := standardDefrost }) with
          heatDist := condensity [1, 0, 0, 0, 0, 0, 0, 0, 0, 0, 0, 0]
          isVIP := true
          depressesTemperature := false
          minT := F_TO_C 40
          externalOutlet := 0
          externalInlet := 23
          turnOn := [nodesLogic "fourth node" [4] (dF_TO_dC 15) false .less false]
          shutOff := [nodesLogic "lowest node" [1] (dF_TO_dC 15) false .greater true]
          backup := some 1 },
        .singlePass ⟨105, [136 / 10 * 2, 995 / 100000 * 2, (-(342 / 10000)) * 2, (-(14 / 1000)) * 2,
         (-(11 / 100000)) * 2, 26 / 100000 * 2, 232 / 1000000 * 2, 195 / 1000000 * 2, (-(34 / 100000)) * 2,
         53 / 10000000 * 2, 236 / 100000000 * 2],
          [1945 / 1000, 412 / 10000, -(112 / 10000), -(161 / 100000), 492 / 10000000, 348 / 10000000,
           -(323 / 10000000), -(166 / 1000000), 112 / 10000000, 392 / 10000000, -(352 / 1000000000)]⟩⟩]

/-- `TamScalable_SP_Half`, src/HPWHpresets.cc:3796-3906. -/
def TamScalable_SP_Half : Preset where
  n := 23
  k := 3
  setpoint := F_TO_C 135
  volume_L := 315
  UA := 7
  volumeFixed := false
  mixesOnDraw := false
  canScale := true
  resize := some 600
  src := ![⟨{ element 9 (5 / 10 * 30000) with
          isVIP := true
          turnOn := [Logics.topThird (dF_TO_dC 15)]
          companion := some 2
          followedBy := some 1 }, .none⟩,
    ⟨{ element 0 (5 / 10 * 30000) with
          backup := some 2
          followedBy := some 2 }, .none⟩,
    ⟨{ SourceCfg.blank (.condenser { CondCfg.blank with
            configuration := .external
            isMultipass := false
            maxSetpoint := maxOutletR134A
            hysteresis := 0
            doDefrost := true
            defrostMap := standardDefrost }) with
          heatDist := condensity [1, 0, 0, 0, 0, 0, 0, 0, 0, 0, 0, 0]
          isVIP := true
          depressesTemperature := false
          minT := F_TO_C 40
          externalOutlet := 0
          externalInlet := 23
          turnOn := [nodesLogic "fourth node" [4] (dF_TO_dC 15) false .less false]
          shutOff := [nodesLogic "lowest node" [1] (dF_TO_dC 15) false .greater true]
          backup := some 1 },
        .singlePass ⟨105, [136 / 10 * (5 / 10), 995 / 100000 * (5 / 10), (-(342 / 10000)) * (5 / 10),
         (-(14 / 1000)) * (5 / 10), (-(11 / 100000)) * (5 / 10), 26 / 100000 * (5 / 10), 232 / 1000000 * (5 / 10),
         195 / 1000000 * (5 / 10), (-(34 / 100000)) * (5 / 10), 53 / 10000000 * (5 / 10), 236 / 100000000 * (5 / 10)],
          [1945 / 1000, 412 / 10000, -(112 / 10000), -(161 / 100000), 492 / 10000000, 348 / 10000000,
           -(323 / 10000000), -(166 / 1000000), 112 / 10000000, 392 / 10000000, -(352 / 1000000000)]⟩⟩]

/-- `Scalable_MP`, src/HPWHpresets.cc:3907-3978. -/
def Scalable_MP : Preset where
  n := 23
  k := 3
  setpoint := F_TO_C 135
  volume_L := 315
  UA := 7
  volumeFixed := false
  mixesOnDraw := false
  canScale := true
  resize := some 600
  src := ![⟨{ element 9 30000 with
          isVIP := true
          turnOn := [Logics.topThird (dF_TO_dC 30)]
          companion := some 2
          followedBy := some 1 }, .none⟩,
    ⟨{ element 0 30000 with
          backup := some 2
          followedBy := some 2 }, .none⟩,
    ⟨{ SourceCfg.blank (.condenser { CondCfg.blank with
            configuration := .external
            mpFlowRate_LPS := GPM_TO_LPS 25
            maxSetpoint := maxOutletR134A
            hysteresis := 0
            doDefrost := true
            defrostMap := standardDefrost }) with
          heatDist := condensity [0, 0, 0, 1, 0, 0, 0, 0, 0, 0, 0, 0]
          isVIP := true
          depressesTemperature := false
          minT := F_TO_C 40
          maxT := F_TO_C 105
          externalOutlet := 0
          externalInlet := 7
          turnOn := [nodesLogic "fourth node" [4] (dF_TO_dC 5) false .less false]
          shutOff := [nodesLogic "fourth node" [4] (dF_TO_dC 0) false .greater false]
          backup := some 1 },
        .multiPass ⟨100, [124 / 10, 739 / 100000, -(41 / 1000), 0, 578 / 1000000, 696 / 10000000],
          [12 / 10, 333 / 10000, 191 / 100000, 283 / 1000000, 496 / 10000000, -(44 / 100000)]⟩⟩]

/-- `Mitsubishi_QAHV_N136TAU_HPB_SP`, src/HPWHpresets.cc:1754-2017. -/
def Mitsubishi_QAHV_N136TAU_HPB_SP : Preset where
  n := 95
  k := 1
  setpoint := 65
  volume_L := GAL_TO_L 500
  UA := 12
  volumeFixed := false
  mixesOnDraw := false
  src := ![⟨{ SourceCfg.blank (.condenser { CondCfg.blank with
            configuration := .external
            isMultipass := false
            maxSetpoint := F_TO_C (1761 / 10)
            hysteresis := 4
            coldSideOffset := dF_TO_dC 10
            hotSideOffset := dF_TO_dC 15
            extraPumpPower_W := 27 }) with
          heatDist := condensity [1, 0, 0, 0, 0, 0, 0, 0, 0, 0, 0, 0]
          isVIP := true
          depressesTemperature := false
          minT := F_TO_C (-13)
          externalOutlet := 0
          externalInlet := 95
          turnOn := [nodesLogic "eighth node absolute" [4] (F_TO_C 110) true .less false]
          shutOff := [nodesLogic "lowest node" [1] (dF_TO_dC 15) false .greater true] },
        .grid⟩]

/-- `ColmacCxV_5_SP`, src/HPWHpresets.cc:725-970. -/
def ColmacCxV_5_SP : Preset where
  n := 95
  k := 1
  setpoint := F_TO_C 135
  volume_L := 315
  UA := 7
  volumeFixed := false
  mixesOnDraw := false
  resize := some 200
  src := ![⟨{ SourceCfg.blank (.condenser { CondCfg.blank with
            configuration := .external
            isMultipass := false
            maxSetpoint := maxOutletR410A
            hysteresis := 0
            doDefrost := true
            defrostMap := standardDefrost }) with
          heatDist := condensity [1, 0, 0, 0, 0, 0, 0, 0, 0, 0, 0, 0]
          isVIP := true
          depressesTemperature := false
          minT := F_TO_C (-4)
          externalOutlet := 0
          externalInlet := 95
          turnOn := [nodesLogic "fourth node" [4] (dF_TO_dC 15) false .less false]
          shutOff := [nodesLogic "lowest node" [1] (dF_TO_dC 15) false .greater true] },
        .singlePass ⟨100, [49621645063 / 10000000000, -(96084144 / 10000000000), -(95647009 / 10000000000),
         -(11591196 / 1000000000), -(788517 / 10000000000), 886176 / 10000000000, 1114142 / 10000000000,
         1832377 / 10000000000, -(451308 / 10000000000), 411975 / 10000000000, 3535 / 10000000000],
          [3818992242 / 1000000000, 569412237 / 10000000000, -(320101962 / 10000000000), -(12859036 / 10000000000),
           576439 / 10000000000, 1101241 / 10000000000, -(352368 / 10000000000), -(2630301 / 10000000000),
           -(509365 / 10000000000), 369655 / 10000000000, -(606 / 10000000000)]⟩⟩]

/-- `ColmacCxA_10_SP`, src/HPWHpresets.cc:725-970. -/
def ColmacCxA_10_SP : Preset where
  n := 95
  k := 1
  setpoint := F_TO_C 135
  volume_L := 315
  UA := 7
  volumeFixed := false
  mixesOnDraw := false
  resize := some 500
  src := ![⟨{ SourceCfg.blank (.condenser { CondCfg.blank with
            configuration := .external
            isMultipass := false
            maxSetpoint := maxOutletR134A
            hysteresis := 0
            doDefrost := true
            defrostMap := standardDefrost }) with
          heatDist := condensity [1, 0, 0, 0, 0, 0, 0, 0, 0, 0, 0, 0]
          isVIP := true
          depressesTemperature := false
          minT := F_TO_C 40
          externalOutlet := 0
          externalInlet := 95
          turnOn := [nodesLogic "fourth node" [4] (dF_TO_dC 15) false .less false]
          shutOff := [nodesLogic "lowest node" [1] (dF_TO_dC 15) false .greater true] },
        .singlePass ⟨100, [59786974243 / 10000000000, 194445115 / 10000000000, -(77802278 / 10000000000),
         53809029 / 10000000000, -(334832 / 10000000000), 186431 / 1000000000, 119054 / 1000000000,
         40405 / 10000000000, -(2538279 / 10000000000), -(477652 / 10000000000), 14101 / 10000000000],
          [36128563086 / 10000000000, 527064498 / 10000000000, -(278198945 / 10000000000), -(70529748 / 10000000000),
           934705 / 10000000000, 781711 / 10000000000, -(359215 / 10000000000), -(2223206 / 10000000000),
           359239 / 10000000000, 727189 / 10000000000, -(5037 / 10000000000)]⟩⟩]

/-- `ColmacCxA_15_SP`, src/HPWHpresets.cc:725-970. -/
def ColmacCxA_15_SP : Preset where
  n := 95
  k := 1
  setpoint := F_TO_C 135
  volume_L := 315
  UA := 7
  volumeFixed := false
  mixesOnDraw := false
  resize := some 600
  src := ![⟨{ SourceCfg.blank (.condenser { CondCfg.blank with
            configuration := .external
            isMultipass := false
            maxSetpoint := maxOutletR134A
            hysteresis := 0
            doDefrost := true
            defrostMap := standardDefrost }) with
          heatDist := condensity [1, 0, 0, 0, 0, 0, 0, 0, 0, 0, 0, 0]
          isVIP := true
          depressesTemperature := false
          minT := F_TO_C 40
          externalOutlet := 0
          externalInlet := 95
          turnOn := [nodesLogic "fourth node" [4] (dF_TO_dC 15) false .less false]
          shutOff := [nodesLogic "lowest node" [1] (dF_TO_dC 15) false .greater true] },
        .singlePass ⟨100, [155869846555 / 10000000000, -(44503761 / 10000000000), -(577941202 / 10000000000),
         -(286911185 / 10000000000), -(803325 / 10000000000), 3399817 / 10000000000, 2009576 / 10000000000,
         2494761 / 10000000000, -(595773 / 10000000000), 14018 / 100000000, 4312 / 10000000000],
          [16643120405 / 10000000000, 515623393 / 10000000000, -(11023993 / 1000000000), 4151443 / 1000000000,
           481544 / 10000000000, 493424 / 10000000000, -(262721 / 10000000000), -(2356218 / 10000000000),
           -(989625 / 10000000000), -(70572 / 10000000000), 4108 / 10000000000]⟩⟩]

/-- `ColmacCxA_20_SP`, src/HPWHpresets.cc:725-970. -/
def ColmacCxA_20_SP : Preset where
  n := 95
  k := 1
  setpoint := F_TO_C 135
  volume_L := 315
  UA := 7
  volumeFixed := false
  mixesOnDraw := false
  resize := some 800
  src := ![⟨{ SourceCfg.blank (.condenser { CondCfg.blank with
            configuration := .external
            isMultipass := false
            maxSetpoint := maxOutletR134A
            hysteresis := 0
            doDefrost := true
            defrostMap := standardDefrost }) with
          heatDist := condensity [1, 0, 0, 0, 0, 0, 0, 0, 0, 0, 0, 0]
          isVIP := true
          depressesTemperature := false
          minT := F_TO_C 40
          externalOutlet := 0
          externalInlet := 95
          turnOn := [nodesLogic "fourth node" [4] (dF_TO_dC 15) false .less false]
          shutOff := [nodesLogic "lowest node" [1] (dF_TO_dC 15) false .greater true] },
        .singlePass ⟨100, [230746692231 / 10000000000, 248584608 / 10000000000, -(1417927282 / 10000000000),
         -(253733303 / 10000000000), -(4882754 / 10000000000), 6508079 / 10000000000, 2139934 / 10000000000,
         5552752 / 10000000000, -(2026772 / 10000000000), 607338 / 10000000000, 21571 / 10000000000],
          [1769266012 / 1000000000, 525134783 / 10000000000, -(8110204 / 1000000000), -(8715405 / 10000000000),
           1274956 / 10000000000, 369489 / 10000000000, -(293775 / 10000000000), -(2778086 / 10000000000),
           -(95067 / 10000000000), 381186 / 10000000000, -(3135 / 10000000000)]⟩⟩]

/-- `ColmacCxA_25_SP`, src/HPWHpresets.cc:725-970. -/
def ColmacCxA_25_SP : Preset where
  n := 95
  k := 1
  setpoint := F_TO_C 135
  volume_L := 315
  UA := 7
  volumeFixed := false
  mixesOnDraw := false
  resize := some 1000
  src := ![⟨{ SourceCfg.blank (.condenser { CondCfg.blank with
            configuration := .external
            isMultipass := false
            maxSetpoint := maxOutletR134A
            hysteresis := 0
            doDefrost := true
            defrostMap := standardDefrost }) with
          heatDist := condensity [1, 0, 0, 0, 0, 0, 0, 0, 0, 0, 0, 0]
          isVIP := true
          depressesTemperature := false
          minT := F_TO_C 40
          externalOutlet := 0
          externalInlet := 95
          turnOn := [nodesLogic "fourth node" [4] (dF_TO_dC 15) false .less false]
          shutOff := [nodesLogic "lowest node" [1] (dF_TO_dC 15) false .greater true] },
        .singlePass ⟨100, [204185336541 / 10000000000, -(236920615 / 10000000000), -(736219119 / 10000000000),
         -(260385082 / 10000000000), -(5048074 / 10000000000), 494051 / 1000000000, 263266 / 1000000000,
         982005 / 1000000000, -(223587 / 10000000000), 885101 / 10000000000, 5649 / 10000000000],
          [8942843854 / 10000000000, 677641611 / 10000000000, -(1582927 / 10000000000), 48083998 / 10000000000,
           1196407 / 10000000000, 334921 / 10000000000, -(37874 / 1000000000), -(4146401 / 10000000000),
           -(1213363 / 10000000000), -(31856 / 10000000000), 6306 / 10000000000]⟩⟩]

/-- `ColmacCxA_30_SP`, src/HPWHpresets.cc:725-970. -/
def ColmacCxA_30_SP : Preset where
  n := 95
  k := 1
  setpoint := F_TO_C 135
  volume_L := 315
  UA := 7
  volumeFixed := false
  mixesOnDraw := false
  resize := some 1200
  src := ![⟨{ SourceCfg.blank (.condenser { CondCfg.blank with
            configuration := .external
            isMultipass := false
            maxSetpoint := maxOutletR134A
            hysteresis := 0
            doDefrost := true
            defrostMap := standardDefrost }) with
          heatDist := condensity [1, 0, 0, 0, 0, 0, 0, 0, 0, 0, 0, 0]
          isVIP := true
          depressesTemperature := false
          minT := F_TO_C 40
          externalOutlet := 0
          externalInlet := 95
          turnOn := [nodesLogic "fourth node" [4] (dF_TO_dC 15) false .less false]
          shutOff := [nodesLogic "lowest node" [1] (dF_TO_dC 15) false .greater true] },
        .singlePass ⟨100, [113687485772 / 10000000000, -(207292362 / 10000000000), 496254077 / 10000000000,
         -(38394967 / 10000000000), -(5991041 / 10000000000), 1304318 / 10000000000, 3099774 / 10000000000,
         12092717 / 10000000000, -(1455509 / 10000000000), -(893889 / 10000000000), 18221 / 10000000000],
          [44170108542 / 10000000000, 596384263 / 10000000000, -(416104579 / 10000000000), -(17199887 / 10000000000),
           774664 / 10000000000, 1521934 / 10000000000, -(251665 / 10000000000), -(3289731 / 10000000000),
           -(801823 / 10000000000), 325972 / 10000000000, 2705 / 10000000000]⟩⟩]

/-- `ColmacCxV_5_MP`, src/HPWHpresets.cc:973-1162. -/
def ColmacCxV_5_MP : Preset where
  n := 23
  k := 1
  setpoint := F_TO_C 135
  volume_L := 315
  UA := 7
  volumeFixed := false
  mixesOnDraw := false
  resize := some 200
  src := ![⟨{ SourceCfg.blank (.condenser { CondCfg.blank with
            configuration := .external
            mpFlowRate_LPS := GPM_TO_LPS 9
            maxSetpoint := maxOutletR410A
            hysteresis := 0
            doDefrost := true
            defrostMap := standardDefrost }) with
          heatDist := condensity [0, 0, 0, 1, 0, 0, 0, 0, 0, 0, 0, 0]
          isVIP := true
          depressesTemperature := false
          minT := F_TO_C (-4)
          maxT := F_TO_C 105
          externalOutlet := 0
          externalInlet := 7
          turnOn := [nodesLogic "fourth node" [4] (dF_TO_dC 5) false .less false]
          shutOff := [nodesLogic "fourth node" [4] (dF_TO_dC 0) false .greater false] },
        .multiPass ⟨100, [58438525529 / 10000000000, 3288231 / 10000000000, -(49425584 / 1000000000),
         -(386642 / 10000000000), 4385362 / 10000000000, 647268 / 10000000000],
          [6679056901 / 10000000000, 499777846 / 10000000000, 251828292 / 10000000000, 699764 / 10000000000,
           -(1552229 / 10000000000), -(2911167 / 10000000000)]⟩⟩]

/-- `ColmacCxA_10_MP`, src/HPWHpresets.cc:973-1162. -/
def ColmacCxA_10_MP : Preset where
  n := 23
  k := 1
  setpoint := F_TO_C 135
  volume_L := 315
  UA := 7
  volumeFixed := false
  mixesOnDraw := false
  resize := some 500
  src := ![⟨{ SourceCfg.blank (.condenser { CondCfg.blank with
            configuration := .external
            mpFlowRate_LPS := GPM_TO_LPS 18
            maxSetpoint := maxOutletR134A
            hysteresis := 0
            doDefrost := true
            defrostMap := standardDefrost }) with
          heatDist := condensity [0, 0, 0, 1, 0, 0, 0, 0, 0, 0, 0, 0]
          isVIP := true
          depressesTemperature := false
          minT := F_TO_C 40
          maxT := F_TO_C 105
          externalOutlet := 0
          externalInlet := 7
          turnOn := [nodesLogic "fourth node" [4] (dF_TO_dC 5) false .less false]
          shutOff := [nodesLogic "fourth node" [4] (dF_TO_dC 0) false .greater false] },
        .multiPass ⟨100, [86918824405 / 10000000000, 136666667 / 10000000000, -(548348214 / 10000000000),
         -(208333 / 10000000000), 5301339 / 10000000000, -(25 / 1000000)],
          [6944181117 / 10000000000, 445926666 / 10000000000, 213188804 / 10000000000, 1172913 / 10000000000,
           -(1387694 / 10000000000), -(2365885 / 10000000000)]⟩⟩]

/-- `ColmacCxA_15_MP`, src/HPWHpresets.cc:973-1162. -/
def ColmacCxA_15_MP : Preset where
  n := 23
  k := 1
  setpoint := F_TO_C 135
  volume_L := 315
  UA := 7
  volumeFixed := false
  mixesOnDraw := false
  resize := some 600
  src := ![⟨{ SourceCfg.blank (.condenser { CondCfg.blank with
            configuration := .external
            mpFlowRate_LPS := GPM_TO_LPS 26
            maxSetpoint := maxOutletR134A
            hysteresis := 0
            doDefrost := true
            defrostMap := standardDefrost }) with
          heatDist := condensity [0, 0, 0, 1, 0, 0, 0, 0, 0, 0, 0, 0]
          isVIP := true
          depressesTemperature := false
          minT := F_TO_C 40
          maxT := F_TO_C 105
          externalOutlet := 0
          externalInlet := 7
          turnOn := [nodesLogic "fourth node" [4] (dF_TO_dC 5) false .less false]
          shutOff := [nodesLogic "fourth node" [4] (dF_TO_dC 0) false .greater false] },
        .multiPass ⟨100, [124908723958 / 10000000000, 73988095 / 10000000000, -(411417411 / 10000000000), 0,
         5789621 / 10000000000, 696429 / 10000000000],
          [1284634952 / 1000000000, 334658309 / 10000000000, 19121906 / 10000000000, 284097 / 1000000000,
           497136 / 10000000000, -(4401737 / 10000000000)]⟩⟩]

/-- `ColmacCxA_20_MP`, src/HPWHpresets.cc:973-1162. -/
def ColmacCxA_20_MP : Preset where
  n := 23
  k := 1
  setpoint := F_TO_C 135
  volume_L := 315
  UA := 7
  volumeFixed := false
  mixesOnDraw := false
  resize := some 800
  src := ![⟨{ SourceCfg.blank (.condenser { CondCfg.blank with
            configuration := .external
            mpFlowRate_LPS := GPM_TO_LPS 36
            maxSetpoint := maxOutletR134A
            hysteresis := 0
            doDefrost := true
            defrostMap := standardDefrost }) with
          heatDist := condensity [0, 0, 0, 1, 0, 0, 0, 0, 0, 0, 0, 0]
          isVIP := true
          depressesTemperature := false
          minT := F_TO_C 40
          maxT := F_TO_C 105
          externalOutlet := 0
          externalInlet := 7
          turnOn := [nodesLogic "fourth node" [4] (dF_TO_dC 5) false .less false]
          shutOff := [nodesLogic "fourth node" [4] (dF_TO_dC 0) false .greater false] },
        .multiPass ⟨100, [144893345424 / 10000000000, 355357143 / 10000000000, -(476593192 / 10000000000),
         -(2916667 / 10000000000), 6120954 / 10000000000, 3607143 / 10000000000],
          [12421582831 / 10000000000, 450256569 / 10000000000, 51234755 / 10000000000, 1271296 / 10000000000,
           -(299981 / 10000000000), -(2910606 / 10000000000)]⟩⟩]

/-- `ColmacCxA_25_MP`, src/HPWHpresets.cc:973-1162. -/
def ColmacCxA_25_MP : Preset where
  n := 23
  k := 1
  setpoint := F_TO_C 135
  volume_L := 315
  UA := 7
  volumeFixed := false
  mixesOnDraw := false
  resize := some 1000
  src := ![⟨{ SourceCfg.blank (.condenser { CondCfg.blank with
            configuration := .external
            mpFlowRate_LPS := GPM_TO_LPS 32
            maxSetpoint := maxOutletR134A
            hysteresis := 0
            doDefrost := true
            defrostMap := standardDefrost }) with
          heatDist := condensity [0, 0, 0, 1, 0, 0, 0, 0, 0, 0, 0, 0]
          isVIP := true
          depressesTemperature := false
          minT := F_TO_C 40
          maxT := F_TO_C 105
          externalOutlet := 0
          externalInlet := 7
          turnOn := [nodesLogic "fourth node" [4] (dF_TO_dC 5) false .less false]
          shutOff := [nodesLogic "fourth node" [4] (dF_TO_dC 0) false .greater false] },
        .multiPass ⟨100, [145805808222 / 10000000000, 81934524 / 10000000000, -(216169085 / 10000000000),
         -(1979167 / 10000000000), 7376535 / 10000000000, 4955357 / 10000000000],
          [20013175767 / 10000000000, 576617432 / 10000000000, -(13048087 / 1000000000), 856818 / 10000000000,
           61076 / 1000000000, -(3684106 / 10000000000)]⟩⟩]

/-- `ColmacCxA_30_MP`, src/HPWHpresets.cc:973-1162. -/
def ColmacCxA_30_MP : Preset where
  n := 23
  k := 1
  setpoint := F_TO_C 135
  volume_L := 315
  UA := 7
  volumeFixed := false
  mixesOnDraw := false
  resize := some 1200
  src := ![⟨{ SourceCfg.blank (.condenser { CondCfg.blank with
            configuration := .external
            mpFlowRate_LPS := GPM_TO_LPS 41
            maxSetpoint := maxOutletR134A
            hysteresis := 0
            doDefrost := true
            defrostMap := standardDefrost }) with
          heatDist := condensity [0, 0, 0, 1, 0, 0, 0, 0, 0, 0, 0, 0]
          isVIP := true
          depressesTemperature := false
          minT := F_TO_C 40
          maxT := F_TO_C 105
          externalOutlet := 0
          externalInlet := 7
          turnOn := [nodesLogic "fourth node" [4] (dF_TO_dC 5) false .less false]
          shutOff := [nodesLogic "fourth node" [4] (dF_TO_dC 0) false .greater false] },
        .multiPass ⟨100, [145824911644 / 10000000000, 72083333 / 10000000000, -(278055246 / 10000000000),
         -(2916667 / 10000000000), 8841378 / 10000000000, 8125 / 10000000],
          [26996807527 / 10000000000, 617507969 / 10000000000, -(22096642 / 1000000000), 336149 / 10000000000,
           890989 / 10000000000, -(3682431 / 10000000000)]⟩⟩]

/-- `NyleC25A_SP`, src/HPWHpresets.cc:1164-1435. -/
def NyleC25A_SP : Preset where
  n := 95
  k := 1
  setpoint := F_TO_C 135
  volume_L := 315
  UA := 7
  volumeFixed := false
  mixesOnDraw := false
  resize := some 200
  src := ![⟨{ SourceCfg.blank (.condenser { CondCfg.blank with
            configuration := .external
            isMultipass := false
            maxSetpoint := maxOutletR134A
            hysteresis := 0
            doDefrost := true
            defrostMap := standardDefrost }) with
          heatDist := condensity [1, 0, 0, 0, 0, 0, 0, 0, 0, 0, 0, 0]
          isVIP := true
          depressesTemperature := false
          minT := F_TO_C 40
          maxT := F_TO_C 120
          externalOutlet := 0
          externalInlet := 95
          turnOn := [nodesLogic "fourth node" [4] (dF_TO_dC 15) false .less false]
          shutOff := [nodesLogic "lowest node" [1] (dF_TO_dC 15) false .greater true] },
        .singlePass ⟨90, [4060120364 / 1000000000, -(20584279 / 1000000000), -(24201054 / 1000000000),
         -(7023945 / 1000000000), 17461 / 1000000000, 110366 / 1000000000, 60338 / 1000000000, 120015 / 1000000000,
         111068 / 1000000000, 138907 / 1000000000, -(1569 / 1000000000)],
          [462979529 / 1000000000, 6565684 / 100000000, 1077377 / 1000000000, 3428059 / 1000000000,
           243692 / 1000000000, 21522 / 1000000000, 5143 / 1000000000, -(384778 / 1000000000),
           -(404744 / 1000000000), -(36277 / 1000000000), 19 / 10000000]⟩⟩]

/-- `NyleC60A_SP`, src/HPWHpresets.cc:1164-1435. -/
def NyleC60A_SP : Preset where
  n := 95
  k := 1
  setpoint := F_TO_C 135
  volume_L := 315
  UA := 7
  volumeFixed := false
  mixesOnDraw := false
  resize := some 300
  src := ![⟨{ SourceCfg.blank (.condenser { CondCfg.blank with
            configuration := .external
            isMultipass := false
            maxSetpoint := maxOutletR134A
            hysteresis := 0
            doDefrost := true
            defrostMap := standardDefrost }) with
          heatDist := condensity [1, 0, 0, 0, 0, 0, 0, 0, 0, 0, 0, 0]
          isVIP := true
          depressesTemperature := false
          minT := F_TO_C 40
          maxT := F_TO_C 120
          externalOutlet := 0
          externalInlet := 95
          turnOn := [nodesLogic "fourth node" [4] (dF_TO_dC 15) false .less false]
          shutOff := [nodesLogic "lowest node" [1] (dF_TO_dC 15) false .greater true] },
        .singlePass ⟨90, [-(1180905709 / 10000000000), 45354306 / 10000000000, 314990479 / 10000000000,
         -(406839757 / 10000000000), 2355294 / 10000000000, 818684 / 10000000000, 1943834 / 10000000000,
         -(2160871 / 10000000000), 3053633 / 10000000000, 3612413 / 10000000000, -(35912 / 10000000000)],
          [68205043418 / 10000000000, 860385185 / 10000000000, -(748330699 / 10000000000),
           -(172447955 / 10000000000), 510842 / 10000000000, 2187441 / 10000000000, -(321036 / 10000000000),
           -(3311463 / 10000000000), -(215427 / 1000000000), 1307922 / 10000000000, 5568 / 10000000000]⟩⟩]

/-- `NyleC90A_SP`, src/HPWHpresets.cc:1164-1435. -/
def NyleC90A_SP : Preset where
  n := 95
  k := 1
  setpoint := F_TO_C 135
  volume_L := 315
  UA := 7
  volumeFixed := false
  mixesOnDraw := false
  resize := some 400
  src := ![⟨{ SourceCfg.blank (.condenser { CondCfg.blank with
            configuration := .external
            isMultipass := false
            maxSetpoint := maxOutletR134A
            hysteresis := 0
            doDefrost := true
            defrostMap := standardDefrost }) with
          heatDist := condensity [1, 0, 0, 0, 0, 0, 0, 0, 0, 0, 0, 0]
          isVIP := true
          depressesTemperature := false
          minT := F_TO_C 40
          maxT := F_TO_C 120
          externalOutlet := 0
          externalInlet := 95
          turnOn := [nodesLogic "fourth node" [4] (dF_TO_dC 15) false .less false]
          shutOff := [nodesLogic "lowest node" [1] (dF_TO_dC 15) false .greater true] },
        .singlePass ⟨90, [1327612215047 / 100000000000, -(1014009337 / 100000000000), -(13401028549 / 100000000000),
         -(2325705976 / 100000000000), -(32515646 / 100000000000), 40270625 / 100000000000, 1988733 / 100000000000,
         6945167 / 10000000000, 6906789 / 10000000000, 71091372 / 100000000000, -(854352 / 100000000000)],
          [149112327987 / 100000000000, 6616282153 / 100000000000, 715307252 / 100000000000,
           -(1269458185 / 100000000000), 31448571 / 100000000000, 1765313 / 100000000000, 6002498 / 100000000000,
           -(45661397 / 100000000000), -(34003896 / 100000000000), -(4327766 / 100000000000),
           176015 / 100000000000]⟩⟩]

/-- `NyleC125A_SP`, src/HPWHpresets.cc:1164-1435. -/
def NyleC125A_SP : Preset where
  n := 95
  k := 1
  setpoint := F_TO_C 135
  volume_L := 315
  UA := 7
  volumeFixed := false
  mixesOnDraw := false
  resize := some 500
  src := ![⟨{ SourceCfg.blank (.condenser { CondCfg.blank with
            configuration := .external
            isMultipass := false
            maxSetpoint := maxOutletR134A
            hysteresis := 0
            doDefrost := true
            defrostMap := standardDefrost }) with
          heatDist := condensity [1, 0, 0, 0, 0, 0, 0, 0, 0, 0, 0, 0]
          isVIP := true
          depressesTemperature := false
          minT := F_TO_C 40
          maxT := F_TO_C 120
          externalOutlet := 0
          externalInlet := 95
          turnOn := [nodesLogic "fourth node" [4] (dF_TO_dC 15) false .less false]
          shutOff := [nodesLogic "lowest node" [1] (dF_TO_dC 15) false .greater true] },
        .singlePass ⟨90, [-(3558277209 / 1000000000), -(38590968 / 1000000000), 136307181 / 1000000000,
         -(16945699 / 1000000000), 983753 / 1000000000, -(518201 / 10000000000), 476904 / 1000000000,
         -(514211 / 1000000000), -(359172 / 1000000000), 266509 / 1000000000, -(158646 / 1000000000000)],
          [4889555031 / 1000000000, 117102769 / 1000000000, -(60005795 / 1000000000), -(11871234 / 1000000000),
           -(179926 / 10000000000), 207293 / 1000000000, -(14452 / 1000000000), -(492486 / 1000000000),
           -(376814 / 1000000000), 785911 / 10000000000, 147884 / 100000000000]⟩⟩]

/-- `NyleC185A_SP`, src/HPWHpresets.cc:1164-1435. -/
def NyleC185A_SP : Preset where
  n := 95
  k := 1
  setpoint := F_TO_C 135
  volume_L := 315
  UA := 7
  volumeFixed := false
  mixesOnDraw := false
  resize := some 800
  src := ![⟨{ SourceCfg.blank (.condenser { CondCfg.blank with
            configuration := .external
            isMultipass := false
            maxSetpoint := maxOutletR134A
            hysteresis := 0
            doDefrost := true
            defrostMap := standardDefrost }) with
          heatDist := condensity [1, 0, 0, 0, 0, 0, 0, 0, 0, 0, 0, 0]
          isVIP := true
          depressesTemperature := false
          minT := F_TO_C 40
          maxT := F_TO_C 120
          externalOutlet := 0
          externalInlet := 95
          turnOn := [nodesLogic "fourth node" [4] (dF_TO_dC 15) false .less false]
          shutOff := [nodesLogic "lowest node" [1] (dF_TO_dC 15) false .greater true] },
        .singlePass ⟨90, [1858007733 / 100000000, -(215324777 / 1000000000), -(89782421 / 1000000000),
         1503161 / 100000000, 332503 / 1000000000, 274216 / 1000000000, 270498 / 10000000000, 1387914 / 1000000000,
         449199 / 1000000000, 829578 / 1000000000, -(528641 / 100000000000)],
          [-(629432348 / 1000000000), 181466663 / 1000000000, 44047 / 100000000, 12104957 / 1000000000,
           -(661515 / 10000000000), 929975 / 10000000000, 978042 / 10000000000, -(872708 / 1000000000),
           -(1013945 / 1000000000), -(21852 / 100000000), 555444 / 100000000000]⟩⟩]

/-- `NyleC250A_SP`, src/HPWHpresets.cc:1164-1435. -/
def NyleC250A_SP : Preset where
  n := 95
  k := 1
  setpoint := F_TO_C 135
  volume_L := 315
  UA := 7
  volumeFixed := false
  mixesOnDraw := false
  resize := some 800
  src := ![⟨{ SourceCfg.blank (.condenser { CondCfg.blank with
            configuration := .external
            isMultipass := false
            maxSetpoint := maxOutletR134A
            hysteresis := 0
            doDefrost := true
            defrostMap := standardDefrost }) with
          heatDist := condensity [1, 0, 0, 0, 0, 0, 0, 0, 0, 0, 0, 0]
          isVIP := true
          depressesTemperature := false
          minT := F_TO_C 40
          maxT := F_TO_C 120
          externalOutlet := 0
          externalInlet := 95
          turnOn := [nodesLogic "fourth node" [4] (dF_TO_dC 15) false .less false]
          shutOff := [nodesLogic "lowest node" [1] (dF_TO_dC 15) false .greater true] },
        .singlePass ⟨90, [-(1389057656 / 100000000), 25902417 / 1000000000, 304250541 / 1000000000,
         61695153 / 1000000000, -(1474249 / 1000000000), -(1126845 / 1000000000), -(220192 / 1000000000),
         1241026 / 1000000000, 571009 / 1000000000, -(479282 / 1000000000), 904063 / 100000000000],
          [7443904067 / 1000000000, 185978755 / 1000000000, -(98481635 / 1000000000), -(2500073 / 1000000000),
           127658 / 1000000000, 444321 / 1000000000, 139547 / 1000000000, -(1000195 / 1000000000),
           -(1140199 / 1000000000), -(877557 / 10000000000), 487405 / 100000000000]⟩⟩]

/-- `NyleC60A_C_SP`, src/HPWHpresets.cc:1164-1435. -/
def NyleC60A_C_SP : Preset where
  n := 95
  k := 1
  setpoint := F_TO_C 135
  volume_L := 315
  UA := 7
  volumeFixed := false
  mixesOnDraw := false
  resize := some 300
  src := ![⟨{ SourceCfg.blank (.condenser { CondCfg.blank with
            configuration := .external
            isMultipass := false
            maxSetpoint := maxOutletR134A
            hysteresis := 0
            doDefrost := true
            defrostMap := standardDefrost
            maxOutT := F_TO_C 140
            maxOutAirT := F_TO_C 40 }) with
          heatDist := condensity [1, 0, 0, 0, 0, 0, 0, 0, 0, 0, 0, 0]
          isVIP := true
          depressesTemperature := false
          minT := F_TO_C 35
          maxT := F_TO_C 120
          externalOutlet := 0
          externalInlet := 95
          turnOn := [nodesLogic "fourth node" [4] (dF_TO_dC 15) false .less false]
          shutOff := [nodesLogic "lowest node" [1] (dF_TO_dC 15) false .greater true] },
        .singlePass ⟨90, [-(1180905709 / 10000000000), 45354306 / 10000000000, 314990479 / 10000000000,
         -(406839757 / 10000000000), 2355294 / 10000000000, 818684 / 10000000000, 1943834 / 10000000000,
         -(2160871 / 10000000000), 3053633 / 10000000000, 3612413 / 10000000000, -(35912 / 10000000000)],
          [68205043418 / 10000000000, 860385185 / 10000000000, -(748330699 / 10000000000),
           -(172447955 / 10000000000), 510842 / 10000000000, 2187441 / 10000000000, -(321036 / 10000000000),
           -(3311463 / 10000000000), -(215427 / 1000000000), 1307922 / 10000000000, 5568 / 10000000000]⟩⟩]

/-- `NyleC90A_C_SP`, src/HPWHpresets.cc:1164-1435. -/
def NyleC90A_C_SP : Preset where
  n := 95
  k := 1
  setpoint := F_TO_C 135
  volume_L := 315
  UA := 7
  volumeFixed := false
  mixesOnDraw := false
  resize := some 400
  src := ![⟨{ SourceCfg.blank (.condenser { CondCfg.blank with
            configuration := .external
            isMultipass := false
            maxSetpoint := maxOutletR134A
            hysteresis := 0
            doDefrost := true
            defrostMap := standardDefrost
            maxOutT := F_TO_C 140
            maxOutAirT := F_TO_C 40 }) with
          heatDist := condensity [1, 0, 0, 0, 0, 0, 0, 0, 0, 0, 0, 0]
          isVIP := true
          depressesTemperature := false
          minT := F_TO_C 35
          maxT := F_TO_C 120
          externalOutlet := 0
          externalInlet := 95
          turnOn := [nodesLogic "fourth node" [4] (dF_TO_dC 15) false .less false]
          shutOff := [nodesLogic "lowest node" [1] (dF_TO_dC 15) false .greater true] },
        .singlePass ⟨90, [1327612215047 / 100000000000, -(1014009337 / 100000000000), -(13401028549 / 100000000000),
         -(2325705976 / 100000000000), -(32515646 / 100000000000), 40270625 / 100000000000, 1988733 / 100000000000,
         6945167 / 10000000000, 6906789 / 10000000000, 71091372 / 100000000000, -(854352 / 100000000000)],
          [149112327987 / 100000000000, 6616282153 / 100000000000, 715307252 / 100000000000,
           -(1269458185 / 100000000000), 31448571 / 100000000000, 1765313 / 100000000000, 6002498 / 100000000000,
           -(45661397 / 100000000000), -(34003896 / 100000000000), -(4327766 / 100000000000),
           176015 / 100000000000]⟩⟩]

/-- `NyleC125A_C_SP`, src/HPWHpresets.cc:1164-1435. -/
def NyleC125A_C_SP : Preset where
  n := 95
  k := 1
  setpoint := F_TO_C 135
  volume_L := 315
  UA := 7
  volumeFixed := false
  mixesOnDraw := false
  resize := some 500
  src := ![⟨{ SourceCfg.blank (.condenser { CondCfg.blank with
            configuration := .external
            isMultipass := false
            maxSetpoint := maxOutletR134A
            hysteresis := 0
            doDefrost := true
            defrostMap := standardDefrost
            maxOutT := F_TO_C 140
            maxOutAirT := F_TO_C 40 }) with
          heatDist := condensity [1, 0, 0, 0, 0, 0, 0, 0, 0, 0, 0, 0]
          isVIP := true
          depressesTemperature := false
          minT := F_TO_C 35
          maxT := F_TO_C 120
          externalOutlet := 0
          externalInlet := 95
          turnOn := [nodesLogic "fourth node" [4] (dF_TO_dC 15) false .less false]
          shutOff := [nodesLogic "lowest node" [1] (dF_TO_dC 15) false .greater true] },
        .singlePass ⟨90, [-(3558277209 / 1000000000), -(38590968 / 1000000000), 136307181 / 1000000000,
         -(16945699 / 1000000000), 983753 / 1000000000, -(518201 / 10000000000), 476904 / 1000000000,
         -(514211 / 1000000000), -(359172 / 1000000000), 266509 / 1000000000, -(158646 / 1000000000000)],
          [4889555031 / 1000000000, 117102769 / 1000000000, -(60005795 / 1000000000), -(11871234 / 1000000000),
           -(179926 / 10000000000), 207293 / 1000000000, -(14452 / 1000000000), -(492486 / 1000000000),
           -(376814 / 1000000000), 785911 / 10000000000, 147884 / 100000000000]⟩⟩]

/-- `NyleC185A_C_SP`, src/HPWHpresets.cc:1164-1435. -/
def NyleC185A_C_SP : Preset where
  n := 95
  k := 1
  setpoint := F_TO_C 135
  volume_L := 315
  UA := 7
  volumeFixed := false
  mixesOnDraw := false
  resize := some 800
  src := ![⟨{ SourceCfg.blank (.condenser { CondCfg.blank with
            configuration := .external
            isMultipass := false
            maxSetpoint := maxOutletR134A
            hysteresis := 0
            doDefrost := true
            defrostMap := standardDefrost
            maxOutT := F_TO_C 140
            maxOutAirT := F_TO_C 40 }) with
          heatDist := condensity [1, 0, 0, 0, 0, 0, 0, 0, 0, 0, 0, 0]
          isVIP := true
          depressesTemperature := false
          minT := F_TO_C 35
          maxT := F_TO_C 120
          externalOutlet := 0
          externalInlet := 95
          turnOn := [nodesLogic "fourth node" [4] (dF_TO_dC 15) false .less false]
          shutOff := [nodesLogic "lowest node" [1] (dF_TO_dC 15) false .greater true] },
        .singlePass ⟨90, [1858007733 / 100000000, -(215324777 / 1000000000), -(89782421 / 1000000000),
         1503161 / 100000000, 332503 / 1000000000, 274216 / 1000000000, 270498 / 10000000000, 1387914 / 1000000000,
         449199 / 1000000000, 829578 / 1000000000, -(528641 / 100000000000)],
          [-(629432348 / 1000000000), 181466663 / 1000000000, 44047 / 100000000, 12104957 / 1000000000,
           -(661515 / 10000000000), 929975 / 10000000000, 978042 / 10000000000, -(872708 / 1000000000),
           -(1013945 / 1000000000), -(21852 / 100000000), 555444 / 100000000000]⟩⟩]

/-- `NyleC250A_C_SP`, src/HPWHpresets.cc:1164-1435. -/
def NyleC250A_C_SP : Preset where
  n := 95
  k := 1
  setpoint := F_TO_C 135
  volume_L := 315
  UA := 7
  volumeFixed := false
  mixesOnDraw := false
  resize := some 800
  src := ![⟨{ SourceCfg.blank (.condenser { CondCfg.blank with
            configuration := .external
            isMultipass := false
            maxSetpoint := maxOutletR134A
            hysteresis := 0
            doDefrost := true
            defrostMap := standardDefrost
            maxOutT := F_TO_C 140
            maxOutAirT := F_TO_C 40 }) with
          heatDist := condensity [1, 0, 0, 0, 0, 0, 0, 0, 0, 0, 0, 0]
          isVIP := true
          depressesTemperature := false
          minT := F_TO_C 35
          maxT := F_TO_C 120
          externalOutlet := 0
          externalInlet := 95
          turnOn := [nodesLogic "fourth node" [4] (dF_TO_dC 15) false .less false]
          shutOff := [nodesLogic "lowest node" [1] (dF_TO_dC 15) false .greater true] },
        .singlePass ⟨90, [-(1389057656 / 100000000), 25902417 / 1000000000, 304250541 / 1000000000,
         61695153 / 1000000000, -(1474249 / 1000000000), -(1126845 / 1000000000), -(220192 / 1000000000),
         1241026 / 1000000000, 571009 / 1000000000, -(479282 / 1000000000), 904063 / 100000000000],
          [7443904067 / 1000000000, 185978755 / 1000000000, -(98481635 / 1000000000), -(2500073 / 1000000000),
           127658 / 1000000000, 444321 / 1000000000, 139547 / 1000000000, -(1000195 / 1000000000),
           -(1140199 / 1000000000), -(877557 / 10000000000), 487405 / 100000000000]⟩⟩]

/-- `NyleC60A_MP`, src/HPWHpresets.cc:1438-1658. -/
def NyleC60A_MP : Preset where
  n := 23
  k := 1
  setpoint := F_TO_C 135
  volume_L := 315
  UA := 7
  volumeFixed := false
  mixesOnDraw := false
  resize := some 360
  src := ![⟨{ SourceCfg.blank (.condenser { CondCfg.blank with
            configuration := .external
            isMultipass := true
            mpFlowRate_LPS := GPM_TO_LPS 13
            maxSetpoint := F_TO_C 160
            hysteresis := 0
            doDefrost := true
            defrostMap := standardDefrost }) with
          heatDist := condensity [0, 0, 0, 1, 0, 0, 0, 0, 0, 0, 0, 0]
          isVIP := true
          depressesTemperature := false
          minT := F_TO_C 40
          maxT := F_TO_C 130
          externalOutlet := 0
          externalInlet := 7
          turnOn := [nodesLogic "fourth node" [4] (dF_TO_dC 5) false .less false]
          shutOff := [nodesLogic "fourth node" [4] (dF_TO_dC 0) false .greater false] },
        .grid⟩]

/-- `NyleC90A_MP`, src/HPWHpresets.cc:1438-1658. -/
def NyleC90A_MP : Preset where
  n := 23
  k := 1
  setpoint := F_TO_C 135
  volume_L := 315
  UA := 7
  volumeFixed := false
  mixesOnDraw := false
  resize := some 480
  src := ![⟨{ SourceCfg.blank (.condenser { CondCfg.blank with
            configuration := .external
            isMultipass := true
            mpFlowRate_LPS := GPM_TO_LPS 20
            maxSetpoint := F_TO_C 160
            hysteresis := 0
            doDefrost := true
            defrostMap := standardDefrost }) with
          heatDist := condensity [0, 0, 0, 1, 0, 0, 0, 0, 0, 0, 0, 0]
          isVIP := true
          depressesTemperature := false
          minT := F_TO_C 40
          maxT := F_TO_C 130
          externalOutlet := 0
          externalInlet := 7
          turnOn := [nodesLogic "fourth node" [4] (dF_TO_dC 5) false .less false]
          shutOff := [nodesLogic "fourth node" [4] (dF_TO_dC 0) false .greater false] },
        .grid⟩]

/-- `NyleC125A_MP`, src/HPWHpresets.cc:1438-1658. -/
def NyleC125A_MP : Preset where
  n := 23
  k := 1
  setpoint := F_TO_C 135
  volume_L := 315
  UA := 7
  volumeFixed := false
  mixesOnDraw := false
  resize := some 600
  src := ![⟨{ SourceCfg.blank (.condenser { CondCfg.blank with
            configuration := .external
            isMultipass := true
            mpFlowRate_LPS := GPM_TO_LPS 28
            maxSetpoint := F_TO_C 160
            hysteresis := 0
            doDefrost := true
            defrostMap := standardDefrost }) with
          heatDist := condensity [0, 0, 0, 1, 0, 0, 0, 0, 0, 0, 0, 0]
          isVIP := true
          depressesTemperature := false
          minT := F_TO_C 40
          maxT := F_TO_C 130
          externalOutlet := 0
          externalInlet := 7
          turnOn := [nodesLogic "fourth node" [4] (dF_TO_dC 5) false .less false]
          shutOff := [nodesLogic "fourth node" [4] (dF_TO_dC 0) false .greater false] },
        .grid⟩]

/-- `NyleC185A_MP`, src/HPWHpresets.cc:1438-1658. -/
def NyleC185A_MP : Preset where
  n := 23
  k := 1
  setpoint := F_TO_C 135
  volume_L := 315
  UA := 7
  volumeFixed := false
  mixesOnDraw := false
  resize := some 960
  src := ![⟨{ SourceCfg.blank (.condenser { CondCfg.blank with
            configuration := .external
            isMultipass := true
            mpFlowRate_LPS := GPM_TO_LPS 40
            maxSetpoint := F_TO_C 160
            hysteresis := 0
            doDefrost := true
            defrostMap := standardDefrost }) with
          heatDist := condensity [0, 0, 0, 1, 0, 0, 0, 0, 0, 0, 0, 0]
          isVIP := true
          depressesTemperature := false
          minT := F_TO_C 40
          maxT := F_TO_C 130
          externalOutlet := 0
          externalInlet := 7
          turnOn := [nodesLogic "fourth node" [4] (dF_TO_dC 5) false .less false]
          shutOff := [nodesLogic "fourth node" [4] (dF_TO_dC 0) false .greater false] },
        .grid⟩]

/-- `NyleC250A_MP`, src/HPWHpresets.cc:1438-1658. -/
def NyleC250A_MP : Preset where
  n := 23
  k := 1
  setpoint := F_TO_C 135
  volume_L := 315
  UA := 7
  volumeFixed := false
  mixesOnDraw := false
  resize := some 960
  src := ![⟨{ SourceCfg.blank (.condenser { CondCfg.blank with
            configuration := .external
            isMultipass := true
            mpFlowRate_LPS := GPM_TO_LPS 50
            maxSetpoint := F_TO_C 160
            hysteresis := 0
            doDefrost := true
            defrostMap := standardDefrost }) with
          heatDist := condensity [0, 0, 0, 1, 0, 0, 0, 0, 0, 0, 0, 0]
          isVIP := true
          depressesTemperature := false
          minT := F_TO_C 40
          maxT := F_TO_C 130
          externalOutlet := 0
          externalInlet := 7
          turnOn := [nodesLogic "fourth node" [4] (dF_TO_dC 5) false .less false]
          shutOff := [nodesLogic "fourth node" [4] (dF_TO_dC 0) false .greater false] },
        .grid⟩]

/-- `NyleC60A_C_MP`, src/HPWHpresets.cc:1438-1658. -/
def NyleC60A_C_MP : Preset where
  n := 23
  k := 1
  setpoint := F_TO_C 135
  volume_L := 315
  UA := 7
  volumeFixed := false
  mixesOnDraw := false
  resize := some 360
  src := ![⟨{ SourceCfg.blank (.condenser { CondCfg.blank with
            configuration := .external
            isMultipass := true
            mpFlowRate_LPS := GPM_TO_LPS 13
            maxSetpoint := F_TO_C 160
            hysteresis := 0
            doDefrost := true
            defrostMap := standardDefrost
            resDefrostPower_kW := 45 / 10
            resDefrostLift_dF := 5
            resDefrostOnBelow_F := 40 }) with
          heatDist := condensity [0, 0, 0, 1, 0, 0, 0, 0, 0, 0, 0, 0]
          isVIP := true
          depressesTemperature := false
          minT := F_TO_C 35
          maxT := F_TO_C 130
          externalOutlet := 0
          externalInlet := 7
          turnOn := [nodesLogic "fourth node" [4] (dF_TO_dC 5) false .less false]
          shutOff := [nodesLogic "fourth node" [4] (dF_TO_dC 0) false .greater false] },
        .grid⟩]

/-- `NyleC90A_C_MP`, src/HPWHpresets.cc:1438-1658. -/
def NyleC90A_C_MP : Preset where
  n := 23
  k := 1
  setpoint := F_TO_C 135
  volume_L := 315
  UA := 7
  volumeFixed := false
  mixesOnDraw := false
  resize := some 480
  src := ![⟨{ SourceCfg.blank (.condenser { CondCfg.blank with
            configuration := .external
            isMultipass := true
            mpFlowRate_LPS := GPM_TO_LPS 20
            maxSetpoint := F_TO_C 160
            hysteresis := 0
            doDefrost := true
            defrostMap := standardDefrost
            resDefrostPower_kW := 54 / 10
            resDefrostLift_dF := 5
            resDefrostOnBelow_F := 40 }) with
          heatDist := condensity [0, 0, 0, 1, 0, 0, 0, 0, 0, 0, 0, 0]
          isVIP := true
          depressesTemperature := false
          minT := F_TO_C 35
          maxT := F_TO_C 130
          externalOutlet := 0
          externalInlet := 7
          turnOn := [nodesLogic "fourth node" [4] (dF_TO_dC 5) false .less false]
          shutOff := [nodesLogic "fourth node" [4] (dF_TO_dC 0) false .greater false] },
        .grid⟩]

/-- `NyleC125A_C_MP`, src/HPWHpresets.cc:1438-1658. -/
def NyleC125A_C_MP : Preset where
  n := 23
  k := 1
  setpoint := F_TO_C 135
  volume_L := 315
  UA := 7
  volumeFixed := false
  mixesOnDraw := false
  resize := some 600
  src := ![⟨{ SourceCfg.blank (.condenser { CondCfg.blank with
            configuration := .external
            isMultipass := true
            mpFlowRate_LPS := GPM_TO_LPS 28
            maxSetpoint := F_TO_C 160
            hysteresis := 0
            doDefrost := true
            defrostMap := standardDefrost
            resDefrostPower_kW := 9
            resDefrostLift_dF := 5
            resDefrostOnBelow_F := 40 }) with
          heatDist := condensity [0, 0, 0, 1, 0, 0, 0, 0, 0, 0, 0, 0]
          isVIP := true
          depressesTemperature := false
          minT := F_TO_C 35
          maxT := F_TO_C 130
          externalOutlet := 0
          externalInlet := 7
          turnOn := [nodesLogic "fourth node" [4] (dF_TO_dC 5) false .less false]
          shutOff := [nodesLogic "fourth node" [4] (dF_TO_dC 0) false .greater false] },
        .grid⟩]

/-- `NyleC185A_C_MP`, src/HPWHpresets.cc:1438-1658. -/
def NyleC185A_C_MP : Preset where
  n := 23
  k := 1
  setpoint := F_TO_C 135
  volume_L := 315
  UA := 7
  volumeFixed := false
  mixesOnDraw := false
  resize := some 960
  src := ![⟨{ SourceCfg.blank (.condenser { CondCfg.blank with
            configuration := .external
            isMultipass := true
            mpFlowRate_LPS := GPM_TO_LPS 40
            maxSetpoint := F_TO_C 160
            hysteresis := 0
            doDefrost := true
            defrostMap := standardDefrost
            resDefrostPower_kW := 72 / 10
            resDefrostLift_dF := 5
            resDefrostOnBelow_F := 40 }) with
          heatDist := condensity [0, 0, 0, 1, 0, 0, 0, 0, 0, 0, 0, 0]
          isVIP := true
          depressesTemperature := false
          minT := F_TO_C 35
          maxT := F_TO_C 130
          externalOutlet := 0
          externalInlet := 7
          turnOn := [nodesLogic "fourth node" [4] (dF_TO_dC 5) false .less false]
          shutOff := [nodesLogic "fourth node" [4] (dF_TO_dC 0) false .greater false] },
        .grid⟩]

/-- `NyleC250A_C_MP`, src/HPWHpresets.cc:1438-1658. -/
def NyleC250A_C_MP : Preset where
  n := 23
  k := 1
  setpoint := F_TO_C 135
  volume_L := 315
  UA := 7
  volumeFixed := false
  mixesOnDraw := false
  resize := some 960
  src := ![⟨{ SourceCfg.blank (.condenser { CondCfg.blank with
            configuration := .external
            isMultipass := true
            mpFlowRate_LPS := GPM_TO_LPS 50
            maxSetpoint := F_TO_C 160
            hysteresis := 0
            doDefrost := true
            defrostMap := standardDefrost
            resDefrostPower_kW := 18
            resDefrostLift_dF := 5
            resDefrostOnBelow_F := 40 }) with
          heatDist := condensity [0, 0, 0, 1, 0, 0, 0, 0, 0, 0, 0, 0]
          isVIP := true
          depressesTemperature := false
          minT := F_TO_C 35
          maxT := F_TO_C 130
          externalOutlet := 0
          externalInlet := 7
          turnOn := [nodesLogic "fourth node" [4] (dF_TO_dC 5) false .less false]
          shutOff := [nodesLogic "fourth node" [4] (dF_TO_dC 0) false .greater false] },
        .grid⟩]

/-- `RheemHPHD60`, src/HPWHpresets.cc:1660-1752. -/
def RheemHPHD60 : Preset where
  n := 23
  k := 1
  setpoint := F_TO_C 135
  volume_L := 315
  UA := 7
  volumeFixed := false
  mixesOnDraw := false
  resize := some 250
  src := ![⟨{ SourceCfg.blank (.condenser { CondCfg.blank with
            configuration := .external
            mpFlowRate_LPS := GPM_TO_LPS (174 / 10)
            maxSetpoint := maxOutletR134A
            hysteresis := 0
            doDefrost := true
            defrostMap := standardDefrost }) with
          heatDist := condensity [0, 0, 0, 1, 0, 0, 0, 0, 0, 0, 0, 0]
          isVIP := true
          depressesTemperature := false
          minT := F_TO_C 45
          maxT := F_TO_C 110
          externalOutlet := 0
          externalInlet := 7
          turnOn := [nodesLogic "fourth node" [4] (dF_TO_dC 5) false .less false]
          shutOff := [nodesLogic "fourth node" [4] (dF_TO_dC 0) false .greater false] },
        .multiPass ⟨110, [18558438453 / 10000000000, 120796155 / 10000000000, -(135443327 / 10000000000),
         59621 / 10000000000, 3010506 / 10000000000, -(463525 / 10000000000)],
          [3684004636 / 1000000000, 995685071 / 10000000000, -(398107723 / 10000000000), -(190316 / 1000000000),
           980361 / 10000000000, -(3469814 / 10000000000)]⟩⟩]

/-- `RheemHPHD135`, src/HPWHpresets.cc:1660-1752. -/
def RheemHPHD135 : Preset where
  n := 23
  k := 1
  setpoint := F_TO_C 135
  volume_L := 315
  UA := 7
  volumeFixed := false
  mixesOnDraw := false
  resize := some 500
  src := ![⟨{ SourceCfg.blank (.condenser { CondCfg.blank with
            configuration := .external
            mpFlowRate_LPS := GPM_TO_LPS (3487 / 100)
            maxSetpoint := maxOutletR134A
            hysteresis := 0
            doDefrost := true
            defrostMap := standardDefrost }) with
          heatDist := condensity [0, 0, 0, 1, 0, 0, 0, 0, 0, 0, 0, 0]
          isVIP := true
          depressesTemperature := false
          minT := F_TO_C 45
          maxT := F_TO_C 110
          externalOutlet := 0
          externalInlet := 7
          turnOn := [nodesLogic "fourth node" [4] (dF_TO_dC 5) false .less false]
          shutOff := [nodesLogic "fourth node" [4] (dF_TO_dC 0) false .greater false] },
        .multiPass ⟨110, [51838201136 / 10000000000, 247312962 / 10000000000, -(12076644 / 1000000000),
         493862 / 10000000000, 5422089 / 10000000000, -(1385078 / 10000000000)],
          [50207181209 / 10000000000, 44252579 / 1000000000, -(418284882 / 10000000000), 793531 / 10000000000,
           1132421 / 10000000000, -(2491563 / 10000000000)]⟩⟩]

/-- The names of the built-in models `initLegacy` has a branch for, with the models. -/
def table : List (String × Preset) :=
  [("restankNoUA", restankNoUA), ("restankHugeUA", restankHugeUA), ("restankRealistic", restankRealistic),
   ("basicIntegrated", basicIntegrated), ("AOSmithCAHP120", AOSmithCAHP120), ("AOSmithHPTS40", AOSmithHPTS40),
   ("AOSmithHPTS50", AOSmithHPTS50), ("AOSmithHPTS66", AOSmithHPTS66), ("AOSmithHPTS80", AOSmithHPTS80),
   ("AOSmithHPTU50", AOSmithHPTU50), ("AOSmithHPTU66", AOSmithHPTU66), ("AOSmithHPTU80", AOSmithHPTU80),
   ("AOSmithHPTU80_DR", AOSmithHPTU80_DR), ("AOSmithPHPT60", AOSmithPHPT60), ("AOSmithPHPT80", AOSmithPHPT80),
   ("AquaThermAire", AquaThermAire), ("AWHSTier3Generic40", AWHSTier3Generic40), ("AWHSTier3Generic50",
   AWHSTier3Generic50), ("AWHSTier3Generic65", AWHSTier3Generic65), ("AWHSTier3Generic80", AWHSTier3Generic80),
   ("AWHSTier4Generic40", AWHSTier4Generic40), ("AWHSTier4Generic50", AWHSTier4Generic50), ("AWHSTier4Generic65",
   AWHSTier4Generic65), ("AWHSTier4Generic80", AWHSTier4Generic80), ("BWC2020_65", BWC2020_65), ("GE2012_50",
   GE2012_50), ("GE2014STDMode_50", GE2014STDMode_50), ("GE2014STDMode_80", GE2014STDMode_80), ("GE2014_50",
   GE2014_50), ("GE2014_80", GE2014_80), ("GE2014_80DR", GE2014_80DR), ("Generic1", Generic1), ("Generic2", Generic2),
   ("Generic3", Generic3), ("GenericUEF217", GenericUEF217), ("Rheem2020Build40", Rheem2020Build40),
   ("Rheem2020Build50", Rheem2020Build50), ("Rheem2020Build65", Rheem2020Build65), ("Rheem2020Build80",
   Rheem2020Build80), ("Rheem2020Prem40", Rheem2020Prem40), ("Rheem2020Prem50", Rheem2020Prem50), ("Rheem2020Prem65",
   Rheem2020Prem65), ("Rheem2020Prem80", Rheem2020Prem80), ("RheemHB50", RheemHB50), ("RheemHBDR2250", RheemHBDR2250),
   ("RheemHBDR2265", RheemHBDR2265), ("RheemHBDR2280", RheemHBDR2280), ("RheemHBDR4550", RheemHBDR4550),
   ("RheemHBDR4565", RheemHBDR4565), ("RheemHBDR4580", RheemHBDR4580), ("RheemPlugInDedicated40",
   RheemPlugInDedicated40), ("RheemPlugInDedicated50", RheemPlugInDedicated50), ("RheemPlugInShared40",
   RheemPlugInShared40), ("RheemPlugInShared50", RheemPlugInShared50), ("RheemPlugInShared65", RheemPlugInShared65),
   ("RheemPlugInShared80", RheemPlugInShared80), ("Stiebel220E", Stiebel220E), ("UEF2generic", UEF2generic),
   ("LG_APHWC50", LG_APHWC50), ("LG_APHWC80", LG_APHWC80), ("BradfordWhiteAeroThermRE2H50",
   BradfordWhiteAeroThermRE2H50), ("BradfordWhiteAeroThermRE2H65", BradfordWhiteAeroThermRE2H65),
   ("BradfordWhiteAeroThermRE2H80", BradfordWhiteAeroThermRE2H80), ("StorageTank", StorageTank), ("Sanco43", Sanco43),
   ("Sanco83", Sanco83), ("SancoGS3_45HPA_US_SP", SancoGS3_45HPA_US_SP), ("Sanco119", Sanco119), ("TamScalable_SP",
   TamScalable_SP), ("TamScalable_SP_2X", TamScalable_SP_2X), ("TamScalable_SP_Half", TamScalable_SP_Half),
   ("Scalable_MP", Scalable_MP), ("Mitsubishi_QAHV_N136TAU_HPB_SP", Mitsubishi_QAHV_N136TAU_HPB_SP), ("ColmacCxV_5_SP",
   ColmacCxV_5_SP), ("ColmacCxA_10_SP", ColmacCxA_10_SP), ("ColmacCxA_15_SP", ColmacCxA_15_SP), ("ColmacCxA_20_SP",
   ColmacCxA_20_SP), ("ColmacCxA_25_SP", ColmacCxA_25_SP), ("ColmacCxA_30_SP", ColmacCxA_30_SP), ("ColmacCxV_5_MP",
   ColmacCxV_5_MP), ("ColmacCxA_10_MP", ColmacCxA_10_MP), ("ColmacCxA_15_MP", ColmacCxA_15_MP), ("ColmacCxA_20_MP",
   ColmacCxA_20_MP), ("ColmacCxA_25_MP", ColmacCxA_25_MP), ("ColmacCxA_30_MP", ColmacCxA_30_MP), ("NyleC25A_SP",
   NyleC25A_SP), ("NyleC60A_SP", NyleC60A_SP), ("NyleC90A_SP", NyleC90A_SP), ("NyleC125A_SP", NyleC125A_SP),
   ("NyleC185A_SP", NyleC185A_SP), ("NyleC250A_SP", NyleC250A_SP), ("NyleC60A_C_SP", NyleC60A_C_SP), ("NyleC90A_C_SP",
   NyleC90A_C_SP), ("NyleC125A_C_SP", NyleC125A_C_SP), ("NyleC185A_C_SP", NyleC185A_C_SP), ("NyleC250A_C_SP",
   NyleC250A_C_SP), ("NyleC60A_MP", NyleC60A_MP), ("NyleC90A_MP", NyleC90A_MP), ("NyleC125A_MP", NyleC125A_MP),
   ("NyleC185A_MP", NyleC185A_MP), ("NyleC250A_MP", NyleC250A_MP), ("NyleC60A_C_MP", NyleC60A_C_MP), ("NyleC90A_C_MP",
   NyleC90A_C_MP), ("NyleC125A_C_MP", NyleC125A_C_MP), ("NyleC185A_C_MP", NyleC185A_C_MP), ("NyleC250A_C_MP",
   NyleC250A_C_MP), ("RheemHPHD60", RheemHPHD60), ("RheemHPHD135", RheemHPHD135)]

/-- `hpwh_presets::models`: names and numbers of all built-in models, test/models_json/models.json, from which
scripts/python/templates/presets.cpp.j2:12-16 makes the list. -/
def models : List (String × ℤ) :=
  [("restankNoUA", 1), ("restankHugeUA", 2), ("restankRealistic", 3), ("basicIntegrated", 4), ("AOSmithCAHP120", 108),
   ("AOSmithHPTS40", 1100), ("AOSmithHPTS50", 1101), ("AOSmithHPTS66", 1102), ("AOSmithHPTS80", 1103),
   ("AOSmithHPTU50", 104), ("AOSmithHPTU66", 105), ("AOSmithHPTU80", 106), ("AOSmithHPTU80_DR", 107), ("AOSmithPHPT60",
   102), ("AOSmithPHPT80", 103), ("AquaThermAire", 400), ("AWHSTier3Generic40", 175), ("AWHSTier3Generic50", 176),
   ("AWHSTier3Generic65", 177), ("AWHSTier3Generic80", 178), ("AWHSTier4Generic40", 1175), ("AWHSTier4Generic50",
   1176), ("AWHSTier4Generic65", 1177), ("AWHSTier4Generic80", 1178), ("BWC2020_65", 116), ("GE2012_50", 110),
   ("GE2014STDMode_50", 111), ("GE2014STDMode_80", 113), ("GE2014_50", 112), ("GE2014_80", 114), ("GE2014_80DR", 115),
   ("Generic1", 170), ("Generic2", 171), ("Generic3", 172), ("GenericUEF217", 179), ("Rheem2020Build40", 155),
   ("Rheem2020Build50", 156), ("Rheem2020Build65", 157), ("Rheem2020Build80", 158), ("Rheem2020Prem40", 151),
   ("Rheem2020Prem50", 152), ("Rheem2020Prem65", 153), ("Rheem2020Prem80", 154), ("RheemHB50", 140), ("RheemHBDR2250",
   141), ("RheemHBDR2265", 143), ("RheemHBDR2280", 145), ("RheemHBDR4550", 142), ("RheemHBDR4565", 144),
   ("RheemHBDR4580", 146), ("RheemPlugInDedicated40", 1160), ("RheemPlugInDedicated50", 1161), ("RheemPlugInShared40",
   1150), ("RheemPlugInShared50", 1151), ("RheemPlugInShared65", 1152), ("RheemPlugInShared80", 1153), ("Stiebel220E",
   160), ("UEF2generic", 173), ("LG_APHWC50", 600), ("LG_APHWC80", 601), ("BradfordWhiteAeroThermRE2H50", 500),
   ("BradfordWhiteAeroThermRE2H65", 501), ("BradfordWhiteAeroThermRE2H80", 502), ("BradfordWhiteAeroThermRE2HP50",
   503), ("BradfordWhiteAeroThermRE2HP65", 504), ("BradfordWhiteAeroThermRE2HP80", 505), ("StorageTank", 180),
   ("Sanco43", 120), ("Sanco83", 121), ("SancoGS3_45HPA_US_SP", 122), ("Sanco119", 123), ("TamScalable_SP", 190),
   ("TamScalable_SP_2X", 191), ("TamScalable_SP_Half", 192), ("Scalable_MP", 193), ("Mitsubishi_QAHV_N136TAU_HPB_SP",
   250), ("ColmacCxV_5_SP", 210), ("ColmacCxA_10_SP", 211), ("ColmacCxA_15_SP", 212), ("ColmacCxA_20_SP", 213),
   ("ColmacCxA_25_SP", 214), ("ColmacCxA_30_SP", 215), ("ColmacCxV_5_MP", 310), ("ColmacCxA_10_MP", 311),
   ("ColmacCxA_15_MP", 312), ("ColmacCxA_20_MP", 313), ("ColmacCxA_25_MP", 314), ("ColmacCxA_30_MP", 315),
   ("NyleC25A_SP", 230), ("NyleC60A_SP", 231), ("NyleC90A_SP", 232), ("NyleC125A_SP", 233), ("NyleC185A_SP", 234),
   ("NyleC250A_SP", 235), ("NyleC60A_C_SP", 241), ("NyleC90A_C_SP", 242), ("NyleC125A_C_SP", 243), ("NyleC185A_C_SP",
   244), ("NyleC250A_C_SP", 245), ("NyleC60A_MP", 331), ("NyleC90A_MP", 332), ("NyleC125A_MP", 333), ("NyleC185A_MP",
   334), ("NyleC250A_MP", 335), ("NyleC60A_C_MP", 341), ("NyleC90A_C_MP", 342), ("NyleC125A_C_MP", 343),
   ("NyleC185A_C_MP", 344), ("NyleC250A_C_MP", 345), ("RheemHPHD60", 350), ("RheemHPHD135", 353), ("IceAirccHPWH275D",
   1200), ("IceAirccHPWH550D", 1201)]

end HPWH.Presets
