import Verif.Model.Report

/-! # What a table of comma-separated values is -/

namespace HPWH.Spec

open HPWH.Sim

variable {n k : ℕ}

/-- The cells of a line: the parts between the commas. -/
def columns : Line → List Line
  | [] => [[]]
  | .comma :: l => [] :: columns l
  | t :: l =>
    match columns l with
    | [] => [[t]]
    | c :: cs => (t :: c) :: cs

/-- The number in a cell, if there is one. -/
def cellValue (c : Line) : Option ℚ :=
  c.findSome? fun t => match t with | .num _ x => some x | _ => none

/-- A temperature as shown, in °C or °F. -/
def shownT (ip : Bool) (x : ℚ) : ℚ := if ip then 9 / 5 * x + 32 else x

/-- Names and values of the columns for the heat sources: energy in Wh. -/
def sourceTable {k : ℕ} (input output : Fin k → ℚ) : List (String × Option ℚ) :=
  (List.finRange k).flatMap fun i =>
    [("h_src" ++ toString (i.val + 1) ++ "In (Wh)", some (input i * 1000)),
     ("h_src" ++ toString (i.val + 1) ++ "Out (Wh)", some (output i * 1000))]

/-- Names and values of the columns for `m` thermocouples. -/
def thermocoupleTable (m : ℕ) (ip : Bool) (T : Fin m → ℚ) : List (String × Option ℚ) :=
  (List.finRange m).map fun j =>
    ("tcouple" ++ toString (j.val + 1) ++ " (" ++ (if ip then "F" else "C") ++ ")", some (shownT ip (T j)))

/-- Name and value of the last column. -/
def outletTable (ip drawing : Bool) (T : ℚ) : List (String × Option ℚ) :=
  [("toutlet (" ++ (if ip then "F" else "C") ++ ")", if drawing then some (shownT ip T) else none)]

/-- The table of a test or a run: name and value of each column, for a record `r` written while the
simulator is in state `s`. -/
def testTable (s : Sim n k) (multipass : Bool) (dr : ℚ) (target : Option ℚ) (r : TestRecord k) (ip : Bool) :
    List (String × Option ℚ) :=
  [("minutes", some r.time_min), ("Ta", some r.ambientT), ("Tsetpoint", some r.setpointT),
   ("inletT", if r.draw_L > 0 then some r.inletT else none),
   ("draw", if r.draw_L > 0 then some (r.draw_L / (378541 / 100000)) else none)] ++
  (if multipass then [("condenserInletT", some s.condenserInlet), ("condenserOutletT", some s.condenserOutlet),
    ("externalVolGPM", some (s.externalVolumeHeated / (378541 / 100000)))] else []) ++
  (if s.socControl.isSome then [("targetSoCFract", target), ("soCFract", some s.soc)] else []) ++
  [("DRstatus", some dr)] ++ sourceTable r.input_kWh r.output_kWh ++
  thermocoupleTable 6 ip r.thermocoupleT ++ outletTable ip (decide (r.draw_L > 0)) r.outletT

end HPWH.Spec
