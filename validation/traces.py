#!/usr/bin/env python3
"""Writes lean/Verif/Check/Traces.lean: the simulation traces shipped in /repo/simulations, cycle by cycle, with the
statement that the models show the recorded register and output values.  Usage: traces.py /repo <out.lean>"""
import sys,os,re
sys.path.insert(0,os.path.dirname(os.path.abspath(__file__)))
from vcd import load
repo,out=sys.argv[1:3]
def b(v): return 'true' if v else 'false'
def fam(r,n,k,start=0): return '['+', '.join(str(r[n if i==0 else f'{n}${i}']) for i in range(start,start+k))+']'
def rows(f): return load(f'{repo}/simulations/{f}_test_1.vcd')[0]
O=[]
def emit(name,doc,ity,oty,items,init,step,outf):
    v='i' if re.search(r'\bi\b',outf) else '_'
    O.append(f'''/-- {doc} Per cycle: the inputs, and what the trace shows before the clock edge. -/
def {name} : List (({ity}) × ({oty})) :=
  [''' + ',\n   '.join(f'(({i}), ({o}))' for i,o in items) + f''']
/-- The model, started at power-up, shows in every cycle of the trace what the simulation showed. -/
example : agrees ({init}) (fun s i => {step}) (fun s {v} => {outf}) {name} = true := by decide +kernel
''')
R=rows('signals')
emit('signalsTrace','simulations/signals_test_1.vcd.','Bool × Nat × Nat','Nat × Nat × Bool × Bool',
 [(f"{b(r['new_input'])}, {r['width']}, {r['height']}", f"{r['width_temp']}, {r['height_temp']}, {b(r['new_row'])}, {b(r['end_of_frame'])}") for r in R],
 'Signals.init','s.step 4 i.2.1 i.2.2 i.1','(s.widthTemp, s.heightTemp, s.newRow, s.endOfFrame)')
R=rows('markers')
emit('markersTrace','simulations/markers_test_1.vcd.','MarkIn','Nat × Bool × Bool × Bool × Nat × Bool',
 [(f"⟨{r['data_in']}, {b(r['valid_in'])}, {b(r['end_in'])}, {b(r['force_end_in'])}, {b(r['i_busy'])}⟩",
   f"{r['data_out']}, {b(r['valid_out'])}, {b(r['end_out'])}, {b(r['o_busy'])}, {r['counter']}, {b(r['end_cond'])}") for r in R],
 'Markers.init','s.step i','((s.out i).data, (s.out i).valid, (s.out i).endd, (s.out i).oBusy, s.counter, s.endCond)')
R=rows('diff')
emit('differenceTrace','simulations/diff_test_1.vcd.','List Nat × List Nat × Bool × Bool','List Nat × List Nat × Bool × Bool',
 [(f"{fam(r,'pixel_in',4)}, {fam(r,'predic_in',4)}, {b(r['valid_in'])}, {b(r['end_in'])}",
   f"[{r['val_out']}, {r['val_out$1']}, {r['val_out$2']}, {r['val_out$3']}], [{r['val_out$4']}, {r['val_out$5']}, {r['val_out$6']}, {r['val_out$7']}], {b(r['valid_out'])}, {b(r['end_out'])}") for r in R],
 'Difference.init 4','s.step 16 i.1 i.2.1 i.2.2.1 i.2.2.2','(s.vals, s.mns, s.valid, s.endd)')
R=rows('predictor')
emit('predictorTrace','simulations/predictor_test_1.vcd.','List Nat × Bool × Bool × Bool','List Nat × List Nat × List Nat × List Nat × Bool × Bool',
 [(f"{fam(r,'pixel_in',4)}, {b(r['new_row'])}, {b(r['valid_in'])}, {b(r['end_in'])}",
   f"{fam(r,'pixel_out',4)}, {fam(r,'predic_out',4)}, {fam(r,'buff',4)}, {fam(r,'lbuff',4)}, {b(r['valid_out'])}, {b(r['end_out'])}") for r in R],
 'Px4.init 12','s.step i.1 i.2.1 i.2.2.1 i.2.2.2','(s.pixelsOut, s.predicsOut, s.buffs, s.lbuffs, s.valid, s.endd)')
R=rows('normalize')
emit('normalizeTrace','simulations/normalize_test_1.vcd.','List Nat × List Nat × Bool × Bool','List Nat × List Nat × Bool × Bool',
 [(f"{fam(r,'val_in',4)}, {fam(r,'vals_in_mns',4)}, {b(r['valid_in'])}, {b(r['end_in'])}",
   f"{fam(r,'val_out',4)}, {fam(r,'ssss',4)}, {b(r['valid_out'])}, {b(r['end_out'])}") for r in R],
 'Normalize.init 4','s.step 16 i.1 i.2.1 i.2.2.1 i.2.2.2','(s.vals, s.ssss, s.valid, s.endd)')
R=rows('encode')
emit('encodeTrace','simulations/encode_test_1.vcd.','List Nat × List Nat × Bool × Bool','List Nat × List Nat × Bool × Bool',
 [(f"{fam(r,'val_in',4)}, {fam(r,'ssss',4)}, {b(r['valid_in'])}, {b(r['end_in'])}",
   f"{fam(r,'enc_out',4)}, {fam(r,'enc_ctr',4)}, {b(r['valid_out'])}, {b(r['end_out'])}") for r in R],
 'Encode.init 4','s.step 16 (initHuffTable 16) i.1 i.2.1 i.2.2.1 i.2.2.2','(s.encOut, s.encCtr, s.valid, s.endd)')
R=rows('merge')
emit('mergeTrace','simulations/merge_test_1.vcd.','List Nat × List Nat × Bool × Bool','Nat × Nat × Bool × Bool',
 [(f"{fam(r,'enc_in',4)}, {fam(r,'enc_in_ctr',4)}, {b(r['valid_in'])}, {b(r['end_in'])}",
   f"{r['enc_out']}, {r['enc_out_ctr']}, {b(r['valid_out'])}, {b(r['end_out'])}") for r in R],
 'Merge.initLevels 2','Merge.levelsStep 31 s (Merge.baseInputs 4 i.1 i.2.1 i.2.2.1 i.2.2.2)',
 'match Merge.outLevel s (Merge.baseInputs 4 i.1 i.2.1 i.2.2.1 i.2.2.2) with | [m] => (m.enc, m.ctr, m.valid, m.endd) | _ => (0, 0, true, true)')
R=rows('delayer')
emit('delayerTrace','simulations/delayer_test_1.vcd.','Bool','Nat × Bool × Bool',
 [(b(r['in_sig']), f"{r['timer']}, {b(r['timer_start'])}, {b(r['out_sig'])}") for r in R],
 'Delayer.init 3 8','s.step 3 i','(s.timer, s.started, s.out)')
R=rows('lj92_pipeline_fifo')
emit('fifoTrace','simulations/lj92_pipeline_fifo_test_1.vcd.','Bool × Nat × Bool','Bool × Nat × Nat',
 [(f"{b(r['fifo_we'])}, {r['fifo_din']}, {b(r['fifo_re'])}", f"{b(r['valid_out'])}, {r['enc_out']}, {r['level']}") for r in R],
 'Fifo.init 100','s.step 100 i.1 i.2.1 i.2.2','(s.readable, s.dout % 2 ^ 124, s.level)')
open(out,'w').write('''/- Written by validation/traces.py from the simulation traces in /repo/simulations. These are tests of the models, not
proofs of properties: they compare the models with what the authors' simulator recorded. -/
import Verif.Model.Signals
import Verif.Model.Markers
import Verif.Model.Difference
import Verif.Model.Predictor
import Verif.Model.Normalize
import Verif.Model.Encode
import Verif.Model.Merge
import Verif.Model.Delayer
import Verif.Model.Fifo

set_option autoImplicit false

namespace Check
open Model

/-- Run a model along a trace and compare in every cycle. -/
def agrees {S I O : Type} [DecidableEq O] (s : S) (step : S → I → S) (out : S → I → O) : List (I × O) → Bool
  | [] => true
  | (i, o) :: l => decide (out s i = o) && agrees (step s i) step out l

'''+'\n'.join(O)+'\nend Check\n')
