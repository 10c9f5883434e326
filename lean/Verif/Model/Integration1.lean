/- Model of migen_src/integration_1.py: the encoding pipeline. -/
import Verif.Model.Difference
import Verif.Model.Normalize
import Verif.Model.Encode
import Verif.Model.Merge
import Verif.Model.Signals
import Verif.Model.Predictor

set_option autoImplicit false

namespace Model

/-- Parameters of the pipeline: bit depth, pixels per step, frame size (held constant by
the register file or AXI-lite registers during a frame) and the table memory. -/
structure Int1Cfg where
  bd : Nat
  ps : Nat
  W : Nat
  H : Nat
  mem : List Nat
deriving Repr

/-- State of `Integration1` (integration_1.py:37-52).  `force_end`, which only observes
`valid_in`, is modelled separately (`Model.ForceEnd`). -/
structure Int1 where
  signals : Signals
  predictor : Predictor
  difference : Difference
  normalize : Normalize
  encode : Encode
  merge : List (List Merger)
deriving DecidableEq, Repr

namespace Int1

/-- State after reset with the memory read ports' registers holding `rp`. -/
def reset (c : Int1Cfg) (rp : List Nat) : Int1 :=
  { signals := .init
    predictor := .init c.bd c.ps
    difference := .init c.ps
    normalize := .init c.ps
    encode := .reset c.ps rp
    merge := Merge.initLevels (levels c.ps) }

/-- Power-up state. -/
def init (c : Int1Cfg) : Int1 := reset c (List.replicate c.ps 0)

/-- The merge stage's inputs (integration_1.py:143-150). -/
def mergeIn (c : Int1Cfg) (s : Int1) : List Merger :=
  Merge.baseInputs c.ps s.encode.encOut s.encode.encCtr s.encode.valid s.encode.endd

/-- Output word of the pipeline (integration_1.py:151-166): head of the top merge level. -/
def out (c : Int1Cfg) (s : Int1) : Merger :=
  (Merge.outLevel s.merge (s.mergeIn c)).headD Merger.init

/-- One clock edge (integration_1.py:97-166): all stages step on their predecessors'
current registers. -/
def step (c : Int1Cfg) (s : Int1) (pixels : List Nat) (valid : Bool) : Int1 :=
  { signals := s.signals.step c.ps c.W c.H valid
    predictor := s.predictor.step c.ps pixels s.signals.newRow valid s.signals.endOfFrame
    difference := s.difference.step c.bd s.predictor.pixelsOut s.predictor.predicsOut
      s.predictor.valid s.predictor.endd
    normalize := s.normalize.step c.bd s.difference.vals s.difference.mns s.difference.valid
      s.difference.endd
    encode := s.encode.step c.bd c.mem s.normalize.vals s.normalize.ssss s.normalize.valid
      s.normalize.endd
    merge := Merge.levelsStep (singleCtr c.bd) s.merge (s.mergeIn c) }

end Int1
end Model
