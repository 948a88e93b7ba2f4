import Verif.Model.Rating

/-! # What the simulator reports: read-outs in units, tables of comma-separated values, and temperatures
read from a file (src/HPWH.cc:677-818, 1782-1796, 1924-2360) -/

namespace HPWH

open _root_.HPWH.Units

variable {n k : ℕ}

/-- A flow rate reported in some unit, src/HPWH.cc:2324-2335. -/
def flowFromLPS : UnitTag → ℚ → Res ℚ
  | .LPS, x => .ok x
  | .GPM, x => .ok (LPS_TO_GPM x)
  | _, _ => .error .error

/-- A duration reported in some unit, src/HPWH.cc:2344-2358. -/
def timeFromMin : UnitTag → ℚ → Res ℚ
  | .MIN, x => .ok x
  | .SEC, x => .ok (MIN_TO_SEC x)
  | .HR, x => .ok (MIN_TO_HR x)
  | _, _ => .error .error

namespace Sim

/-! ## Read-outs -/

/-- The check of a heat-source number and the access, e.g. src/HPWH.cc:1927-1933. -/
def nthSource (k : ℕ) (i : ℤ) : Res (Fin k) :=
  if h : ¬(i ≥ k ∨ i < 0) then .ok ⟨i.toNat, by omega⟩ else .error .error

/-- `HPWH::getNthHeatSourceEnergyInput`, src/HPWH.cc:1924-1949. -/
def getNthEnergyInput (s : Sim n k) (i : ℤ) (u : UnitTag) : Res ℚ :=
  nthSource k i >>= fun j => energyFromKWH u (s.st j).energyInput_kWh

/-- `HPWH::getNthHeatSourceEnergyOutput`, src/HPWH.cc:1951-1976. -/
def getNthEnergyOutput (s : Sim n k) (i : ℤ) (u : UnitTag) : Res ℚ :=
  nthSource k i >>= fun j => energyFromKWH u (s.st j).energyOutput_kWh

/-- `HPWH::getNthHeatSourceRunTime`, src/HPWH.cc:1978-1986. -/
def getNthRunTime (s : Sim n k) (i : ℤ) : Res ℚ := nthSource k i >>= fun j => .ok (s.st j).runtime_min

/-- `HPWH::isNthHeatSourceRunning`, src/HPWH.cc:1988-2000. -/
def isNthRunning (s : Sim n k) (i : ℤ) : Res Bool := nthSource k i >>= fun j => .ok (s.st j).isOn

/-- `HPWH::isCompressorRunning`, src/HPWH.cc:2002; `getCompressorIndex`, src/HPWH.cc:1800, is `-1` when
there is none. -/
def isCompressorRunning (s : Sim n k) : Res Bool :=
  s.isNthRunning (match s.cfg.compressorIndex with | none => -1 | some j => ((j : ℕ) : ℤ))

/-- `HPWH::getExternalVolumeHeated`, src/HPWH.cc:2040-2054. -/
def getExternalVolumeHeated (s : Sim n k) (u : UnitTag) : Res ℚ := volumeFromL u s.externalVolumeHeated

/-- `HPWH::getEnergyRemovedFromEnvironment`, src/HPWH.cc:2056-2074. -/
def getEnergyRemoved (s : Sim n k) (u : UnitTag) : Res ℚ := energyFromKWH u s.energyRemoved_kWh

/-- `HPWH::getStandbyLosses`, src/HPWH.cc:2076-2094. -/
def getStandbyLosses (s : Sim n k) (u : UnitTag) : Res ℚ := energyFromKWH u s.standbyLosses_kWh

/-- `HPWH::getOutletTemp`, src/HPWH.cc:2096-2110. -/
def getOutletTemp (s : Sim n k) (u : UnitTag) : Res ℚ := tempFromC u s.tank.outletT

/-- `HPWH::getCondenserWaterInletTemp`, src/HPWH.cc:2112-2126. -/
def getCondenserInletTemp (s : Sim n k) (u : UnitTag) : Res ℚ := tempFromC u s.condenserInlet

/-- `HPWH::getCondenserWaterOutletTemp`, src/HPWH.cc:2128-2142. -/
def getCondenserOutletTemp (s : Sim n k) (u : UnitTag) : Res ℚ := tempFromC u s.condenserOutlet

/-- `HPWH::getNthSimTcouple`, src/HPWH.cc:1782-1796. -/
def getNthSimTcouple (s : Sim n k) (i m : ℤ) (u : UnitTag) : Res ℚ :=
  s.tank.nthSimTcouple i m >>= fun x => tempFromC u x

/-- `HPWH::isCompressorExternalMultipass`, src/HPWH.cc:2277-2285; src/Condenser.cc:1279-1282. -/
def isCompressorExternalMultipass (s : Sim n k) : Res Bool :=
  s.compressor >>= fun c => .ok (c.2.isMultipass && decide (c.2.configuration = .external))

/-- `HPWH::getExternalMPFlowRate`, src/HPWH.cc:2317-2336. -/
def getExternalMPFlowRate (s : Sim n k) (u : UnitTag) : Res ℚ :=
  s.isCompressorExternalMultipass >>= fun b =>
    if b then s.compressor >>= fun c => flowFromLPS u c.2.mpFlowRate_LPS else .error .error

/-- `HPWH::getCompressorMinRuntime`, src/HPWH.cc:2338-2359. -/
def getCompressorMinRuntime (s : Sim n k) (u : UnitTag) : Res ℚ :=
  s.compressor >>= fun _ => timeFromMin u 10

/-! ## Tables -/

/-- A piece of an output line: a comma, other text, or a formatted number, with the number of digits after
the point. The characters of a formatted number are not modelled; they contain no comma. -/
inductive Tok
  | comma
  | text (s : String)
  | num (digits : ℕ) (x : ℚ)
  deriving DecidableEq

/-- A line of output, without the end of line. -/
abbrev Line := List Tok

/-- What the tables show besides the state: `prevDRstatus` (src/HPWH.hh:1507) and `_targetSoC`
(src/HPWH.hh:1045, not initialised until a target is set). -/
structure Shown where
  prevDR : ℚ
  targetSoC : Option ℚ

/-- `doIP ? "F" : "C"`. -/
def degrees (ip : Bool) : String := if ip then "F" else "C"

/-- src/HPWH.cc:689-692, 759-762. -/
def sourceNames (k : ℕ) : Line :=
  (List.range k).flatMap fun i =>
    [.comma, .text ("h_src" ++ toString (i + 1) ++ "In (Wh)"),
      .comma, .text ("h_src" ++ toString (i + 1) ++ "Out (Wh)")]

/-- src/HPWH.cc:694-697, 764-767. -/
def thermocoupleNames (m : ℕ) (ip : Bool) : Line :=
  (List.range m).flatMap fun i =>
    [.comma, .text ("tcouple" ++ toString (i + 1) ++ " (" ++ degrees ip ++ ")")]

/-- `HPWH::writeCSVHeading(ofstream&, …)`, src/HPWH.cc:677-702. A negative number of thermocouples is
none. -/
def csvHeading (k : ℕ) (preamble : Line) (m : ℤ) (ip : Bool) : Line :=
  preamble ++ [.text "DRstatus"] ++ sourceNames k ++ thermocoupleNames m.toNat ip ++
    [.comma, .text ("toutlet (" ++ degrees ip ++ ")")]

/-- The cells of the heat sources, src/HPWH.cc:716-721, 799-804. -/
def sourceCells {k : ℕ} (input output : Fin k → ℚ) : Line :=
  (List.finRange k).flatMap fun i =>
    [.comma, .num 2 (input i * 1000), .comma, .num 2 (output i * 1000)]

/-- `HPWH::writeCSVRow(ofstream&, …)`, src/HPWH.cc:704-742. -/
def csvRow (s : Sim n k) (shown : Shown) (preamble : Line) (m : ℤ) (ip drawing : Bool) : Res Line := do
  let tcouples ← (List.range m.toNat).mapM fun i =>
    s.getNthSimTcouple (((i : ℕ) : ℤ) + 1) m (if ip then .F else .C)
  return preamble ++ [.num 0 shown.prevDR] ++
    sourceCells (fun i => (s.st i).energyInput_kWh) (fun i => (s.st i).energyOutput_kWh) ++
    tcouples.flatMap (fun x => [.comma, .num 2 x]) ++
    (if drawing then [.comma, .num 2 (if ip then C_TO_F s.tank.outletT else s.tank.outletT)]
      else [.comma])

/-- `HPWH::writeCSVHeading(ostream*, …)`, src/HPWH.cc:745-770. -/
def testHeading (s : Sim n k) (ip : Bool) : Res Line := do
  let mp ← s.isCompressorExternalMultipass
  return [.text "minutes", .comma, .text "Ta", .comma, .text "Tsetpoint", .comma, .text "inletT",
      .comma, .text "draw"] ++
    (if mp then [.comma, .text "condenserInletT", .comma, .text "condenserOutletT",
      .comma, .text "externalVolGPM"] else []) ++
    (if s.socControl.isSome then [.comma, .text "targetSoCFract", .comma, .text "soCFract"] else []) ++
    [.comma, .text "DRstatus"] ++ sourceNames k ++ thermocoupleNames 6 ip ++
    [.comma, .text ("toutlet (" ++ degrees ip ++ ")")]

/-- The state-of-charge cells, src/HPWH.cc:791-795. -/
def socCells (s : Sim n k) (shown : Shown) : Res Line :=
  if s.socControl.isSome then
    match shown.targetSoC with
    | none => .error .ub
    | some x => .ok [.comma, .text " ", .num 6 x, .comma, .text " ", .num 6 s.soc]
  else .ok []

/-- `HPWH::writeCSVRow(ostream*, …)`, src/HPWH.cc:772-818. -/
def testRow (s : Sim n k) (shown : Shown) (r : TestRecord k) (ip : Bool) : Res Line := do
  let mp ← s.isCompressorExternalMultipass
  let soc ← s.socCells shown
  let volume ← s.getExternalVolumeHeated .GAL
  return [.num 6 r.time_min, .comma, .text " ", .num 6 r.ambientT, .comma, .text " ", .num 6 r.setpointT] ++
    (if r.draw_L > 0 then [.comma, .text " ", .num 6 r.inletT] else [.comma]) ++
    (if r.draw_L > 0 then [.comma, .text " ", .num 6 (L_TO_GAL r.draw_L)] else [.comma]) ++
    (if mp then [.comma, .text " ", .num 6 s.condenserInlet, .comma, .text " ", .num 6 s.condenserOutlet,
      .comma, .text " ", .num 6 volume] else []) ++
    soc ++ [.comma, .text " ", .num 0 shown.prevDR] ++
    sourceCells r.input_kWh r.output_kWh ++
    (List.finRange 6).flatMap (fun j =>
      [.comma, .num 2 (if ip then C_TO_F (r.thermocoupleT j) else r.thermocoupleT j)]) ++
    (if r.draw_L > 0 then [.comma, .num 2 (if ip then C_TO_F r.outletT else r.outletT)] else [.comma])

/-! ## Measured temperatures -/

/-- Whether a text begins with what the expression `TankT[1-6](C)` describes, src/HPWH.cc:2180: the
parentheses form a group and are not part of the text. -/
def atTankT : List Char → Bool
  | 'T' :: 'a' :: 'n' :: 'k' :: 'T' :: d :: 'C' :: _ => decide ('1' ≤ d) && decide (d ≤ '6')
  | _ => false

/-- `std::regex_search` with this expression; the first group if there is a match, src/HPWH.cc:2206-2208. -/
def searchTankT : List Char → Option (List Char)
  | [] => none
  | c :: l => if atTankT (c :: l) then some ['C'] else searchTankT l

/-- `std::stoi` without overflow: white space, a sign, digits; anything may follow. -/
def stoi (l : List Char) : Res ℤ :=
  let l1 := l.dropWhile Char.isWhitespace
  let (sign, l2) : ℤ × List Char := match l1 with
    | '-' :: t => (-1, t)
    | '+' :: t => (1, t)
    | t => (1, t)
  let digits := l2.takeWhile Char.isDigit
  if digits = [] then .error .error
  else .ok (sign * digits.foldl (fun a d => 10 * a + (d.toNat - 48 : ℕ)) 0)

/-- The variables of the loop over the lines, src/HPWH.cc:2182-2188. -/
structure Measured where
  Ts : List (List ℚ)
  iNodes : List ℤ
  cols : List ℕ
  iTime : ℤ
  irow : ℕ
  deriving DecidableEq

/-- The entries of the heading, src/HPWH.cc:2200-2212: the whole line is searched for each entry. -/
def Measured.heading (line : List Char) : (icol : ℕ) → List (List Char) → Measured → Res Measured
  | _, [], q => .ok q
  | icol, e :: es, q =>
    let q1 := if e = "Time(min)".toList then { q with iTime := icol } else q
    match searchTankT line with
    | none => Measured.heading line (icol + 1) es q1
    | some g => stoi g >>= fun i =>
      Measured.heading line (icol + 1) es { q1 with iNodes := q1.iNodes ++ [i - 1], cols := q1.cols ++ [icol] }

/-- `std::vector::resize`. -/
def resized (l : List (List ℚ)) (m : ℕ) : List (List ℚ) := l.take m ++ List.replicate (m - l.length) []

/-- `rowTs[iNodes[i]] = stod(entries[node_cols[i]])`, src/HPWH.cc:2219-2220. -/
def Measured.fill (stod : List Char → Res ℚ) (entries : List (List Char)) :
    List (ℤ × ℕ) → List ℚ → Res (List ℚ)
  | [], row => .ok row
  | (i, c) :: l, row =>
    match entries[c]? with
    | none => .error .ub
    | some e => stod e >>= fun x =>
      if 0 ≤ i ∧ i < row.length then Measured.fill stod entries l (row.set i.toNat x) else .error .ub

/-- One line, src/HPWH.cc:2189-2235; `irow` is never changed. The second component says whether the loop
is left. Simplified: after a comma at the end of a line the code has no entry, the model an empty one. -/
def Measured.line (stod : List Char → Res ℚ) (iMin : ℤ) (line : List Char) (q : Measured) :
    Res (Measured × Bool) :=
  let entries := line.splitOn ','
  if q.irow = 0 then
    Measured.heading line 0 entries q >>= fun q1 =>
      .ok ({ q1 with Ts := resized q1.Ts q1.iNodes.length }, false)
  else
    match (if 0 ≤ q.iTime then entries[q.iTime.toNat]? else none) with
    | none => .error .ub
    | some e => stoi e >>= fun jMin =>
      Measured.fill stod entries (q.iNodes.zip q.cols) (List.replicate q.iNodes.length 0) >>= fun row =>
        if jMin = iMin - 1 then .ok ({ q with Ts := q.Ts ++ [row] }, true)
        else if jMin < 0 then .ok (q, false)
        else .ok ({ q with Ts := q.Ts ++ [row] }, decide (jMin = 1))

/-- The loop over the lines, src/HPWH.cc:2189-2235. -/
def Measured.lines (stod : List Char → Res ℚ) (iMin : ℤ) : List (List Char) → Measured → Res Measured
  | [], q => .ok q
  | l :: ls, q => q.line stod iMin l >>= fun r =>
    if r.2 then .ok r.1 else Measured.lines stod iMin ls r.1

/-- src/HPWH.cc:2238-2247. -/
def extrapolated : List ℚ → Res ℚ
  | [] => .error .ub
  | [x] => .ok x
  | x :: y :: _ => .ok (2 * x - y)

/-- `HPWH::setTankFromMeasured`, src/HPWH.cc:2170-2249, with the lines of the file (a file that cannot be
opened ends the program). `stod` is the library function. -/
def setTankFromMeasured (stod : List Char → Res ℚ) (file : List (List Char)) (iMin : ℤ) (s : Sim n k) :
    Res (Sim n k) :=
  Measured.lines stod iMin file ⟨[], [], [], -1, 0⟩ >>= fun q =>
    q.Ts.mapM extrapolated >>= fun Ts =>
      s.tank.setNodeTs Ts >>= fun t => .ok { s with tank := t }

end Sim

end HPWH
