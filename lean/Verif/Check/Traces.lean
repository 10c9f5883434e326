/- Written by validation/traces.py from the simulation traces in /repo/simulations. These are tests of the models, not
proofs of properties: they compare the models with what the authors' simulator recorded. -/
import Verif.Model.Signals
import Verif.Model.Markers
import Verif.Model.Difference
import Verif.Model.Predictor
import Verif.Model.Normalize
import Verif.Model.Encode
import Verif.Model.Merge
import Verif.Model.Delayer
import Verif.Model.Fifo

set_option autoImplicit false

namespace Check
open Model

/-- Run a model along a trace and compare in every cycle. -/
def agrees {S I O : Type} [DecidableEq O] (s : S) (step : S → I → S) (out : S → I → O) : List (I × O) → Bool
  | [] => true
  | (i, o) :: l => decide (out s i = o) && agrees (step s i) step out l

/-- simulations/signals_test_1.vcd. Per cycle: the inputs, and what the trace shows before the clock edge. -/
def signalsTrace : List ((Bool × Nat × Nat) × (Nat × Nat × Bool × Bool)) :=
  [((false, 0, 0), (0, 0, true, false)),
   ((false, 0, 0), (0, 0, true, false)),
   ((true, 12, 4), (0, 0, true, false)),
   ((true, 12, 4), (8, 3, false, false)),
   ((true, 12, 4), (4, 3, false, false)),
   ((true, 12, 4), (12, 2, true, false)),
   ((true, 12, 4), (8, 2, false, false)),
   ((true, 12, 4), (4, 2, false, false)),
   ((true, 12, 4), (12, 1, true, false)),
   ((true, 12, 4), (8, 1, false, false)),
   ((true, 12, 4), (4, 1, false, false)),
   ((true, 12, 4), (12, 0, true, false)),
   ((true, 12, 4), (8, 0, false, false)),
   ((true, 12, 4), (4, 0, false, true)),
   ((false, 12, 4), (4, 0, false, true))]
/-- The model, started at power-up, shows in every cycle of the trace what the simulation showed. -/
example : agrees (Signals.init) (fun s i => s.step 4 i.2.1 i.2.2 i.1) (fun s _ => (s.widthTemp, s.heightTemp, s.newRow, s.endOfFrame)) signalsTrace = true := by decide +kernel

/-- simulations/markers_test_1.vcd. Per cycle: the inputs, and what the trace shows before the clock edge. -/
def markersTrace : List ((MarkIn) × (Nat × Bool × Bool × Bool × Nat × Bool)) :=
  [((⟨0, false, false, false, false⟩), (0, false, false, true, 0, false)),
   ((⟨0, false, false, false, false⟩), (0, false, false, true, 8, false)),
   ((⟨0, false, false, false, false⟩), (0, false, false, true, 8, false)),
   ((⟨0, false, false, false, false⟩), (0, false, false, true, 8, false)),
   ((⟨0, false, false, false, false⟩), (0, false, false, true, 8, false)),
   ((⟨0, false, false, false, false⟩), (0, false, false, true, 8, false)),
   ((⟨0, false, false, false, false⟩), (0, false, false, true, 8, false)),
   ((⟨0, false, false, false, false⟩), (0, false, false, true, 8, false)),
   ((⟨0, false, false, false, false⟩), (0, false, false, true, 8, false)),
   ((⟨0, false, false, false, false⟩), (0, false, false, true, 8, false)),
   ((⟨0, false, false, false, false⟩), (0, false, false, true, 8, false)),
   ((⟨291, true, false, false, false⟩), (0, false, false, true, 8, false)),
   ((⟨291, true, false, false, false⟩), (65535, true, false, true, 8, false)),
   ((⟨291, true, false, false, false⟩), (65535, true, false, true, 7, false)),
   ((⟨291, true, false, false, false⟩), (65535, true, false, true, 6, false)),
   ((⟨291, true, false, false, false⟩), (65535, true, false, true, 5, false)),
   ((⟨291, true, false, false, false⟩), (65535, true, false, true, 4, false)),
   ((⟨291, true, false, false, false⟩), (65535, true, false, true, 3, false)),
   ((⟨291, true, false, false, false⟩), (65535, true, false, true, 2, false)),
   ((⟨291, true, false, false, false⟩), (65535, true, false, true, 1, false)),
   ((⟨291, true, false, false, false⟩), (0, false, false, true, 0, false)),
   ((⟨291, true, false, false, false⟩), (291, true, false, false, 8, false)),
   ((⟨291, true, false, false, false⟩), (291, true, false, false, 8, false)),
   ((⟨291, true, false, false, false⟩), (291, true, false, false, 8, false)),
   ((⟨291, true, false, false, false⟩), (291, true, false, false, 8, false)),
   ((⟨291, true, false, false, false⟩), (291, true, false, false, 8, false)),
   ((⟨291, true, false, false, false⟩), (291, true, false, false, 8, false)),
   ((⟨291, true, false, false, false⟩), (291, true, false, false, 8, false)),
   ((⟨291, true, false, false, false⟩), (291, true, false, false, 8, false)),
   ((⟨291, true, false, false, false⟩), (291, true, false, false, 8, false)),
   ((⟨291, true, false, false, false⟩), (291, true, false, false, 8, false)),
   ((⟨291, true, true, false, false⟩), (291, true, false, false, 8, false)),
   ((⟨291, true, true, false, false⟩), (0, false, false, true, 8, true)),
   ((⟨291, true, true, false, false⟩), (65535, true, false, true, 8, true)),
   ((⟨291, true, true, false, false⟩), (65535, true, false, true, 7, true)),
   ((⟨291, true, true, false, false⟩), (65535, true, false, true, 6, true)),
   ((⟨291, true, true, false, false⟩), (65535, true, false, true, 5, true)),
   ((⟨291, true, true, false, false⟩), (65535, true, false, true, 4, true)),
   ((⟨291, true, true, false, false⟩), (65535, true, false, true, 3, true)),
   ((⟨291, true, true, false, false⟩), (65535, true, false, true, 2, true)),
   ((⟨291, true, true, false, false⟩), (65535, true, true, true, 1, true)),
   ((⟨291, true, true, false, false⟩), (65535, true, true, true, 0, true)),
   ((⟨291, true, true, false, false⟩), (65535, true, true, true, 0, true)),
   ((⟨291, true, true, false, false⟩), (65535, true, true, true, 0, true)),
   ((⟨291, true, true, false, false⟩), (65535, true, true, true, 0, true)),
   ((⟨291, true, true, false, false⟩), (65535, true, true, true, 0, true)),
   ((⟨291, true, true, false, false⟩), (65535, true, true, true, 0, true)),
   ((⟨291, true, true, false, false⟩), (65535, true, true, true, 0, true)),
   ((⟨291, true, true, false, false⟩), (65535, true, true, true, 0, true)),
   ((⟨291, true, true, false, false⟩), (65535, true, true, true, 0, true)),
   ((⟨291, true, true, false, false⟩), (65535, true, true, true, 0, true))]
/-- The model, started at power-up, shows in every cycle of the trace what the simulation showed. -/
example : agrees (Markers.init) (fun s i => s.step i) (fun s i => ((s.out i).data, (s.out i).valid, (s.out i).endd, (s.out i).oBusy, s.counter, s.endCond)) markersTrace = true := by decide +kernel

/-- simulations/diff_test_1.vcd. Per cycle: the inputs, and what the trace shows before the clock edge. -/
def differenceTrace : List ((List Nat × List Nat × Bool × Bool) × (List Nat × List Nat × Bool × Bool)) :=
  [(([0, 0, 0, 0], [0, 0, 0, 0], false, false), ([0, 0, 0, 0], [0, 0, 0, 0], false, false)),
   (([100, 1000, 500, 900], [100, 1000, 500, 900], true, false), ([0, 0, 0, 0], [0, 0, 0, 0], false, false)),
   (([200, 2000, 700, 800], [100, 1000, 500, 900], true, false), ([0, 0, 0, 0], [131071, 131071, 131071, 131071], true, false)),
   (([200, 2000, 700, 800], [100, 1000, 500, 900], false, false), ([100, 1000, 200, 130972], [99, 999, 199, 130971], true, false)),
   (([200, 2000, 700, 800], [100, 1000, 500, 900], false, false), ([100, 1000, 200, 130972], [99, 999, 199, 130971], false, false))]
/-- The model, started at power-up, shows in every cycle of the trace what the simulation showed. -/
example : agrees (Difference.init 4) (fun s i => s.step 16 i.1 i.2.1 i.2.2.1 i.2.2.2) (fun s _ => (s.vals, s.mns, s.valid, s.endd)) differenceTrace = true := by decide +kernel

/-- simulations/predictor_test_1.vcd. Per cycle: the inputs, and what the trace shows before the clock edge. -/
def predictorTrace : List ((List Nat × Bool × Bool × Bool) × (List Nat × List Nat × List Nat × List Nat × Bool × Bool)) :=
  [(([0, 0, 0, 0], false, false, false), ([0, 0, 0, 0], [0, 0, 0, 0], [2048, 2048, 2048, 2048], [2048, 2048, 2048, 2048], false, false)),
   (([100, 1000, 500, 900], true, true, false), ([0, 0, 0, 0], [0, 0, 0, 0], [2048, 2048, 2048, 2048], [2048, 2048, 2048, 2048], false, false)),
   (([200, 2000, 700, 800], false, true, false), ([100, 1000, 500, 900], [2048, 2048, 2048, 2048], [100, 1000, 500, 900], [100, 1000, 500, 900], true, false)),
   (([300, 3000, 300, 350], true, true, false), ([200, 2000, 700, 800], [100, 1000, 500, 900], [200, 2000, 700, 800], [100, 1000, 500, 900], true, false)),
   (([700, 3955, 700, 750], false, true, false), ([300, 3000, 300, 350], [100, 1000, 500, 900], [300, 3000, 300, 350], [300, 3000, 300, 350], true, false)),
   (([700, 3955, 700, 750], false, true, false), ([700, 3955, 700, 750], [300, 3000, 300, 350], [700, 3955, 700, 750], [300, 3000, 300, 350], true, false))]
/-- The model, started at power-up, shows in every cycle of the trace what the simulation showed. -/
example : agrees (Px4.init 12) (fun s i => s.step i.1 i.2.1 i.2.2.1 i.2.2.2) (fun s _ => (s.pixelsOut, s.predicsOut, s.buffs, s.lbuffs, s.valid, s.endd)) predictorTrace = true := by decide +kernel

/-- simulations/normalize_test_1.vcd. Per cycle: the inputs, and what the trace shows before the clock edge. -/
def normalizeTrace : List ((List Nat × List Nat × Bool × Bool) × (List Nat × List Nat × Bool × Bool)) :=
  [(([0, 0, 0, 0], [0, 0, 0, 0], false, false), ([0, 0, 0, 0], [0, 0, 0, 0], false, false)),
   (([0, 1, 2, 3], [131071, 0, 1, 2], true, false), ([0, 0, 0, 0], [0, 0, 0, 0], false, false)),
   (([131071, 131070, 131069, 131068], [131070, 131069, 131068, 131067], true, false), ([0, 1, 2, 3], [0, 1, 2, 2], true, false)),
   (([10, 200, 3000, 65535], [9, 199, 2999, 65534], true, false), ([0, 1, 0, 3], [1, 2, 2, 3], true, false)),
   (([131062, 130872, 128072, 65537], [131061, 130871, 128071, 65536], true, false), ([10, 200, 3000, 65535], [4, 8, 12, 16], true, false)),
   (([131062, 130872, 128072, 65537], [131061, 130871, 128071, 65536], false, false), ([5, 55, 1095, 0], [4, 8, 12, 16], true, false)),
   (([131062, 130872, 128072, 65537], [131061, 130871, 128071, 65536], false, false), ([5, 55, 1095, 0], [4, 8, 12, 16], false, false))]
/-- The model, started at power-up, shows in every cycle of the trace what the simulation showed. -/
example : agrees (Normalize.init 4) (fun s i => s.step 16 i.1 i.2.1 i.2.2.1 i.2.2.2) (fun s _ => (s.vals, s.ssss, s.valid, s.endd)) normalizeTrace = true := by decide +kernel

/-- simulations/encode_test_1.vcd. Per cycle: the inputs, and what the trace shows before the clock edge. -/
def encodeTrace : List ((List Nat × List Nat × Bool × Bool) × (List Nat × List Nat × Bool × Bool)) :=
  [(([0, 0, 0, 0], [0, 0, 0, 0], false, false), ([0, 0, 0, 0], [0, 0, 0, 0], false, false)),
   (([0, 1, 2, 3], [0, 1, 2, 2], true, false), ([0, 0, 0, 0], [0, 0, 0, 0], false, false)),
   (([0, 1, 0, 3], [1, 2, 2, 3], true, false), ([0, 0, 0, 0], [0, 0, 0, 0], false, false)),
   (([10, 200, 3000, 65535], [4, 8, 12, 16], true, false), ([14, 1, 6, 7], [4, 4, 5, 5], true, false)),
   (([5, 55, 1095, 0], [4, 8, 12, 16], true, false), ([0, 5, 4, 19], [4, 5, 5, 6], true, false)),
   (([5, 55, 1095, 0], [4, 8, 12, 16], false, false), ([58, 7880, 2091960, 8190], [7, 13, 21, 13], true, false)),
   (([5, 55, 1095, 0], [4, 8, 12, 16], false, false), ([53, 7735, 2090055, 8190], [7, 13, 21, 13], true, false)),
   (([5, 55, 1095, 0], [4, 8, 12, 16], false, false), ([53, 7735, 2090055, 8190], [7, 13, 21, 13], false, false))]
/-- The model, started at power-up, shows in every cycle of the trace what the simulation showed. -/
example : agrees (Encode.init 4) (fun s i => s.step 16 (initHuffTable 16) i.1 i.2.1 i.2.2.1 i.2.2.2) (fun s _ => (s.encOut, s.encCtr, s.valid, s.endd)) encodeTrace = true := by decide +kernel

/-- simulations/merge_test_1.vcd. Per cycle: the inputs, and what the trace shows before the clock edge. -/
def mergeTrace : List ((List Nat × List Nat × Bool × Bool) × (Nat × Nat × Bool × Bool)) :=
  [(([0, 0, 0, 0], [0, 0, 0, 0], false, false), (0, 0, false, false)),
   (([207, 0, 1431656106, 30], [8, 1, 31, 9], true, false), (0, 0, false, false)),
   (([12, 0, 2, 0], [4, 5, 2, 1], true, false), (0, 0, false, false)),
   (([1505200811, 131510260, 1431656106, 126446250], [31, 31, 31, 31], true, false), (455930821825566, 49, true, false)),
   (([1505200811, 131510260, 1431656106, 126446250], [31, 31, 31, 31], false, false), (3076, 12, true, false)),
   (([1505200811, 131510260, 1431656106, 126446250], [31, 31, 31, 31], false, false), (14906786809420294032168726452933061290, 124, true, false)),
   (([1505200811, 131510260, 1431656106, 126446250], [31, 31, 31, 31], false, false), (14906786809420294032168726452933061290, 124, false, false))]
/-- The model, started at power-up, shows in every cycle of the trace what the simulation showed. -/
example : agrees (Merge.initLevels 2) (fun s i => Merge.levelsStep 31 s (Merge.baseInputs 4 i.1 i.2.1 i.2.2.1 i.2.2.2)) (fun s i => match Merge.outLevel s (Merge.baseInputs 4 i.1 i.2.1 i.2.2.1 i.2.2.2) with | [m] => (m.enc, m.ctr, m.valid, m.endd) | _ => (0, 0, true, true)) mergeTrace = true := by decide +kernel

/-- simulations/delayer_test_1.vcd. Per cycle: the inputs, and what the trace shows before the clock edge. -/
def delayerTrace : List ((Bool) × (Nat × Bool × Bool)) :=
  [((false), (6, false, false)),
   ((true), (6, false, false)),
   ((true), (6, true, false)),
   ((true), (5, true, false)),
   ((true), (4, true, false)),
   ((true), (3, true, false)),
   ((true), (2, true, false)),
   ((true), (1, true, false)),
   ((true), (0, true, false)),
   ((true), (7, true, true)),
   ((true), (6, true, true)),
   ((true), (5, true, true)),
   ((true), (4, true, true)),
   ((true), (3, true, true)),
   ((true), (2, true, true)),
   ((true), (1, true, true)),
   ((true), (0, true, true)),
   ((true), (7, true, true)),
   ((true), (6, true, true)),
   ((true), (5, true, true))]
/-- The model, started at power-up, shows in every cycle of the trace what the simulation showed. -/
example : agrees (Delayer.init 3 8) (fun s i => s.step 3 i) (fun s _ => (s.timer, s.started, s.out)) delayerTrace = true := by decide +kernel

/-- simulations/lj92_pipeline_fifo_test_1.vcd. Per cycle: the inputs, and what the trace shows before the clock edge. -/
def fifoTrace : List ((Bool × Nat × Bool) × (Bool × Nat × Nat)) :=
  [((false, 0, false), (false, 0, 0)),
   ((false, 0, false), (false, 0, 0)),
   ((true, 871973565234904812624897433151604136447, false), (false, 0, 0)),
   ((true, 5380643295984102798120634617049581241112, false), (false, 0, 1)),
   ((false, 5380643295984102798120634617049581241112, false), (true, 1607698094591, 2)),
   ((false, 5380643295984102798120634617049581241112, true), (true, 1607698094591, 2)),
   ((false, 5380643295984102798120634617049581241112, false), (true, 21196016979321998572484549999231910680, 1)),
   ((false, 5380643295984102798120634617049581241112, true), (true, 21196016979321998572484549999231910680, 1)),
   ((false, 5380643295984102798120634617049581241112, false), (false, 21196016979321998572484549999231910680, 0)),
   ((false, 5380643295984102798120634617049581241112, false), (false, 21196016979321998572484549999231910680, 0)),
   ((true, 871973565234904812624897433151604136447, false), (false, 21196016979321998572484549999231910680, 0)),
   ((true, 871973565234904812624897433151604136447, false), (false, 21196016979321998572484549999231910680, 1)),
   ((true, 871973565234904812624897433151604136447, false), (true, 1607698094591, 2)),
   ((true, 871973565234904812624897433151604136447, false), (true, 1607698094591, 3)),
   ((true, 871973565234904812624897433151604136447, false), (true, 1607698094591, 4)),
   ((true, 871973565234904812624897433151604136447, false), (true, 1607698094591, 5)),
   ((true, 871973565234904812624897433151604136447, false), (true, 1607698094591, 6)),
   ((true, 871973565234904812624897433151604136447, false), (true, 1607698094591, 7)),
   ((true, 871973565234904812624897433151604136447, false), (true, 1607698094591, 8)),
   ((true, 871973565234904812624897433151604136447, false), (true, 1607698094591, 9)),
   ((true, 871973565234904812624897433151604136447, false), (true, 1607698094591, 10)),
   ((true, 871973565234904812624897433151604136447, false), (true, 1607698094591, 11)),
   ((true, 871973565234904812624897433151604136447, false), (true, 1607698094591, 12)),
   ((true, 871973565234904812624897433151604136447, false), (true, 1607698094591, 13)),
   ((true, 871973565234904812624897433151604136447, false), (true, 1607698094591, 14)),
   ((true, 871973565234904812624897433151604136447, false), (true, 1607698094591, 15)),
   ((true, 871973565234904812624897433151604136447, false), (true, 1607698094591, 16)),
   ((true, 871973565234904812624897433151604136447, false), (true, 1607698094591, 17)),
   ((true, 871973565234904812624897433151604136447, false), (true, 1607698094591, 18)),
   ((true, 871973565234904812624897433151604136447, false), (true, 1607698094591, 19)),
   ((true, 871973565234904812624897433151604136447, false), (true, 1607698094591, 20)),
   ((true, 871973565234904812624897433151604136447, false), (true, 1607698094591, 21)),
   ((true, 871973565234904812624897433151604136447, false), (true, 1607698094591, 22)),
   ((true, 871973565234904812624897433151604136447, false), (true, 1607698094591, 23)),
   ((true, 871973565234904812624897433151604136447, false), (true, 1607698094591, 24)),
   ((true, 871973565234904812624897433151604136447, false), (true, 1607698094591, 25)),
   ((true, 871973565234904812624897433151604136447, false), (true, 1607698094591, 26)),
   ((true, 871973565234904812624897433151604136447, false), (true, 1607698094591, 27)),
   ((true, 871973565234904812624897433151604136447, false), (true, 1607698094591, 28)),
   ((true, 871973565234904812624897433151604136447, false), (true, 1607698094591, 29)),
   ((true, 871973565234904812624897433151604136447, false), (true, 1607698094591, 30)),
   ((true, 871973565234904812624897433151604136447, false), (true, 1607698094591, 31)),
   ((true, 871973565234904812624897433151604136447, false), (true, 1607698094591, 32)),
   ((true, 871973565234904812624897433151604136447, false), (true, 1607698094591, 33)),
   ((true, 871973565234904812624897433151604136447, false), (true, 1607698094591, 34)),
   ((true, 871973565234904812624897433151604136447, false), (true, 1607698094591, 35)),
   ((true, 871973565234904812624897433151604136447, false), (true, 1607698094591, 36)),
   ((true, 871973565234904812624897433151604136447, false), (true, 1607698094591, 37)),
   ((true, 871973565234904812624897433151604136447, false), (true, 1607698094591, 38)),
   ((true, 871973565234904812624897433151604136447, false), (true, 1607698094591, 39)),
   ((true, 871973565234904812624897433151604136447, false), (true, 1607698094591, 40)),
   ((true, 871973565234904812624897433151604136447, false), (true, 1607698094591, 41)),
   ((true, 871973565234904812624897433151604136447, false), (true, 1607698094591, 42)),
   ((true, 871973565234904812624897433151604136447, false), (true, 1607698094591, 43)),
   ((true, 871973565234904812624897433151604136447, false), (true, 1607698094591, 44)),
   ((true, 871973565234904812624897433151604136447, false), (true, 1607698094591, 45)),
   ((true, 871973565234904812624897433151604136447, false), (true, 1607698094591, 46)),
   ((true, 871973565234904812624897433151604136447, false), (true, 1607698094591, 47)),
   ((true, 871973565234904812624897433151604136447, false), (true, 1607698094591, 48)),
   ((true, 871973565234904812624897433151604136447, false), (true, 1607698094591, 49)),
   ((true, 871973565234904812624897433151604136447, false), (true, 1607698094591, 50)),
   ((true, 871973565234904812624897433151604136447, false), (true, 1607698094591, 51)),
   ((true, 871973565234904812624897433151604136447, false), (true, 1607698094591, 52)),
   ((true, 871973565234904812624897433151604136447, false), (true, 1607698094591, 53)),
   ((true, 871973565234904812624897433151604136447, false), (true, 1607698094591, 54)),
   ((true, 871973565234904812624897433151604136447, false), (true, 1607698094591, 55)),
   ((true, 871973565234904812624897433151604136447, false), (true, 1607698094591, 56)),
   ((true, 871973565234904812624897433151604136447, false), (true, 1607698094591, 57)),
   ((true, 871973565234904812624897433151604136447, false), (true, 1607698094591, 58)),
   ((true, 871973565234904812624897433151604136447, false), (true, 1607698094591, 59)),
   ((true, 871973565234904812624897433151604136447, false), (true, 1607698094591, 60)),
   ((true, 871973565234904812624897433151604136447, false), (true, 1607698094591, 61)),
   ((true, 871973565234904812624897433151604136447, false), (true, 1607698094591, 62)),
   ((true, 871973565234904812624897433151604136447, false), (true, 1607698094591, 63)),
   ((true, 871973565234904812624897433151604136447, false), (true, 1607698094591, 64)),
   ((true, 871973565234904812624897433151604136447, false), (true, 1607698094591, 65)),
   ((true, 871973565234904812624897433151604136447, false), (true, 1607698094591, 66)),
   ((true, 871973565234904812624897433151604136447, false), (true, 1607698094591, 67)),
   ((true, 871973565234904812624897433151604136447, false), (true, 1607698094591, 68)),
   ((true, 871973565234904812624897433151604136447, false), (true, 1607698094591, 69)),
   ((true, 871973565234904812624897433151604136447, false), (true, 1607698094591, 70)),
   ((true, 871973565234904812624897433151604136447, false), (true, 1607698094591, 71)),
   ((true, 871973565234904812624897433151604136447, false), (true, 1607698094591, 72)),
   ((true, 871973565234904812624897433151604136447, false), (true, 1607698094591, 73)),
   ((true, 871973565234904812624897433151604136447, false), (true, 1607698094591, 74)),
   ((true, 871973565234904812624897433151604136447, false), (true, 1607698094591, 75)),
   ((true, 871973565234904812624897433151604136447, false), (true, 1607698094591, 76)),
   ((true, 871973565234904812624897433151604136447, false), (true, 1607698094591, 77)),
   ((true, 871973565234904812624897433151604136447, false), (true, 1607698094591, 78)),
   ((true, 871973565234904812624897433151604136447, false), (true, 1607698094591, 79)),
   ((true, 871973565234904812624897433151604136447, false), (true, 1607698094591, 80)),
   ((true, 871973565234904812624897433151604136447, false), (true, 1607698094591, 81)),
   ((true, 871973565234904812624897433151604136447, false), (true, 1607698094591, 82)),
   ((true, 871973565234904812624897433151604136447, false), (true, 1607698094591, 83)),
   ((true, 871973565234904812624897433151604136447, false), (true, 1607698094591, 84)),
   ((true, 871973565234904812624897433151604136447, false), (true, 1607698094591, 85)),
   ((true, 871973565234904812624897433151604136447, false), (true, 1607698094591, 86)),
   ((true, 871973565234904812624897433151604136447, false), (true, 1607698094591, 87)),
   ((true, 871973565234904812624897433151604136447, false), (true, 1607698094591, 88)),
   ((true, 871973565234904812624897433151604136447, false), (true, 1607698094591, 89)),
   ((false, 871973565234904812624897433151604136447, false), (true, 1607698094591, 90)),
   ((false, 871973565234904812624897433151604136447, false), (true, 1607698094591, 90)),
   ((false, 871973565234904812624897433151604136447, true), (true, 1607698094591, 90)),
   ((false, 871973565234904812624897433151604136447, false), (true, 1607698094591, 89)),
   ((false, 871973565234904812624897433151604136447, false), (true, 1607698094591, 89))]
/-- The model, started at power-up, shows in every cycle of the trace what the simulation showed. -/
example : agrees (Fifo.init 100) (fun s i => s.step 100 i.1 i.2.1 i.2.2) (fun s _ => (s.readable, s.dout % 2 ^ 124, s.level)) fifoTrace = true := by decide +kernel

end Check
