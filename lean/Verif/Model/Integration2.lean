/- Model of migen_src/integration_2.py with its two FIFO enclosures
(migen_src/lj92_pipeline_fifo.py, migen_src/converter_fifo.py). -/
import Verif.Model.Integration1
import Verif.Model.Fifo
import Verif.Model.Converter

set_option autoImplicit false

namespace Model

/-- Parameters of the core: pipeline, FIFO depths, converter width, output width and
packer buffer size (the `config` dictionaries). -/
structure CoreCfg where
  int1 : Int1Cfg
  depth : Nat
  conv : Nat
  cdepth : Nat
  out : Nat
  buf : Nat
deriving Repr

/-- Width of a step's code: `total_ctr` (converter.py:49-50), `data_bits` (lj92_pipeline_fifo.py:47-48). -/
def CoreCfg.total (c : CoreCfg) : Nat := singleCtr c.int1.bd * c.int1.ps

/-- `steps` of the converter FIFO (converter_fifo.py:48-50). -/
def CoreCfg.csteps (c : CoreCfg) : Nat := (c.total + c.conv - 1) / c.conv + 3

/-- State of `Integration2` (integration_2.py:31-34, 55-70). -/
structure Int2 where
  int1 : Int1
  pfifo : Fifo
  pFull : Bool
  conv : Converter
  cfifo : Fifo
  cFull : Bool
  nreadyEndReg : Bool
  nreadyEnd : Bool
  nreadyReset : Bool
  nreadyCtr : Nat
deriving DecidableEq, Repr

/-- What a reset of the core leaves as it is: the contents of the two FIFO memories, and the data
registers of the memory read ports of the FIFOs and of the Huffman table.  (nMigen resets neither
memories nor read ports.) -/
structure Kept where
  pm : List Nat
  pd : Nat
  cm : List Nat
  cd : Nat
  rp : List Nat
deriving DecidableEq, Repr

/-- The memories have the sizes of the configuration. -/
structure Kept.Ok (c : CoreCfg) (m : Kept) : Prop where
  pm : m.pm.length = c.depth - 1
  cm : m.cm.length = c.cdepth - 1
  rp : m.rp.length = c.int1.ps

namespace Int2

/-- What a reset in this state would keep. -/
def kept (s : Int2) : Kept :=
  { pm := s.pfifo.inner.storage, pd := s.pfifo.inner.dout, cm := s.cfifo.inner.storage
    cd := s.cfifo.inner.dout, rp := s.int1.encode.rpData }

/-- State after reset, with `m` in the memories and read registers. -/
def reset (c : CoreCfg) (m : Kept) : Int2 :=
  { int1 := .reset c.int1 m.rp
    pfifo := .reset m.pm m.pd, pFull := false
    conv := .init
    cfifo := .reset m.cm m.cd, cFull := false
    nreadyEndReg := false, nreadyEnd := false, nreadyReset := false, nreadyCtr := 0 }

/-- `nready` (integration_2.py:72-74, 88). -/
def nready (s : Int2) : Bool := s.pFull || s.nreadyEnd || !s.nreadyReset

/-- The piece presented by the converter FIFO (integration_2.py:110-114). -/
def out (c : CoreCfg) (s : Int2) : Code := .unpack c.conv s.cfifo.dout

/-- `valid_out` (integration_2.py:113). -/
def valid (s : Int2) : Bool := s.cfifo.readable

/-- One clock edge (integration_2.py:55-116); `latch` is `latch_output`. -/
def step (c : CoreCfg) (s : Int2) (pixels : List Nat) (validIn latch : Bool) : Int2 :=
  let o := s.int1.out c.int1
  let wire := s.int1.signals.endOfFrame && validIn && !s.nready
  { int1 := s.int1.step c.int1 pixels (validIn && !s.nready)
    pfifo := s.pfifo.step c.depth o.valid (Code.pack c.total ⟨o.enc, o.ctr, o.endd⟩) s.conv.latch
    pFull := decide (s.pfifo.level ≥ c.depth - 10)
    conv := s.conv.step c.total c.conv (.unpack c.total s.pfifo.dout) s.pfifo.readable s.cFull
    cfifo := s.cfifo.step c.cdepth s.conv.valid (Code.pack c.conv s.conv.out) latch
    cFull := decide (s.cfifo.level ≥ c.cdepth - c.csteps)
    nreadyEndReg := if wire then true else s.nreadyEndReg
    nreadyEnd := wire || s.nreadyEndReg
    nreadyReset := if s.nreadyCtr = 7 then true else s.nreadyReset
    nreadyCtr := (s.nreadyCtr + 1) % 8 }

end Int2
end Model
