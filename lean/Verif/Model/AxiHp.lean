/- Models of migen_src/axihp_reader.py, migen_src/axihp_writer.py and migen_src/axihp_fifo.py: the AXI3 burst
reader and writer and the FIFO beside them. Bursts have 16 beats (`data_c=16`, the default, used everywhere). -/
import Verif.Model.B64B32

set_option autoImplicit false

namespace Model

/-! ### FIFO -/

namespace HpFifo

/-- `SyncFIFO(65, 32)` after reset (axihp_fifo.py:33); the input `replace` of the FIFO, not driven by the code, is
taken to be 0. -/
def init : SyncFifo := .init 32

/-- `writable16` and `readable16` (axihp_fifo.py:51-52). -/
def writable16 (s : SyncFifo) : Bool := decide (s.level ≤ 12)
def readable16 (s : SyncFifo) : Bool := decide (16 ≤ s.level)

/-- The 65-bit FIFO word (axihp_fifo.py:43). -/
def word (data : Nat) (endd : Bool) : Nat := endd.toNat + 2 * (data % 2 ^ 64)

/-- `data_out`, `end_out` (axihp_fifo.py:57-58). -/
def data (s : SyncFifo) : Nat := s.front / 2 % 2 ^ 64
def endd (s : SyncFifo) : Bool := s.front % 2 == 1

/-- One clock edge (axihp_fifo.py:41-45). -/
def step (s : SyncFifo) (validIn : Bool) (data : Nat) (endd read : Bool) : SyncFifo := s.step 32 validIn (word data endd) read

end HpFifo

/-! ### Reader -/

/-- Registers of `AxiHPReader` (axihp_reader.py:69-72). -/
structure HpReader where
  active : Nat
  arvalid : Bool
  rready : Bool
deriving DecidableEq, Repr

/-- Inputs of `AxiHPReader` in one cycle: from the control side, from the AXI slave, from the FIFO.
`rid`, `rresp` and the counts do not influence the transfers and are left out. -/
structure HpReadIn where
  enable : Bool
  addrEmpty : Bool
  arready : Bool
  rvalid : Bool
  rlast : Bool
  rdata : Nat
  dataFull : Bool
deriving DecidableEq, Repr

namespace HpReader

/-- Reset values. -/
def init : HpReader := ⟨0, false, false⟩

/-- `addr_en`, `data_en` (axihp_reader.py:83, 107). -/
def addrEn (s : HpReader) (arready : Bool) : Bool := s.arvalid && arready
def dataEn (s : HpReader) (rvalid : Bool) : Bool := s.rready && rvalid

/-- One clock edge (axihp_reader.py:83-138). -/
def step (s : HpReader) (i : HpReadIn) : HpReader :=
  { arvalid := if !s.arvalid then i.enable && !i.addrEmpty && !s.active.testBit 3 else !i.arready
    rready := if !s.rready then !i.dataFull && s.active != 0 else !i.rlast
    active := if s.addrEn i.arready && !i.rlast then (s.active + 1) % 16
      else if !s.addrEn i.arready && i.rlast then (s.active + 15) % 16 else s.active }

end HpReader

/-! ### Writer -/

/-- Registers of `AxiHPWriter` (axihp_writer.py:79-85, 121). -/
structure HpWriter where
  active : Nat
  unconf : Nat
  awvalid : Bool
  wvalid : Bool
  wlast : Bool
  bready : Bool
  counter : Nat
deriving DecidableEq, Repr

/-- Inputs of `AxiHPWriter` in one cycle; `bresp`, `bid` and the counts do not influence the transfers. -/
structure HpWriteIn where
  enable : Bool
  addrEmpty : Bool
  awready : Bool
  wready : Bool
  bvalid : Bool
  dataEmpty : Bool
deriving DecidableEq, Repr

namespace HpWriter

/-- Reset values. -/
def init : HpWriter := ⟨0, 0, false, false, false, false, 0⟩

/-- `addr_en`, `data_en`, `resp_en` (axihp_writer.py:96, 134, 159). -/
def addrEn (s : HpWriter) (awready : Bool) : Bool := s.awvalid && awready
def dataEn (s : HpWriter) (wready : Bool) : Bool := s.wvalid && wready
def respEn (s : HpWriter) (bvalid : Bool) : Bool := s.bready && bvalid

/-- One clock edge (axihp_writer.py:96-198). -/
def step (s : HpWriter) (i : HpWriteIn) : HpWriter :=
  { awvalid := if !s.awvalid then i.enable && !i.addrEmpty && !s.active.testBit 3 else !i.awready
    counter := if s.dataEn i.wready then (if s.counter = 15 then 0 else s.counter + 1) else s.counter
    wlast := if s.dataEn i.wready then s.counter == 15 else s.wlast
    wvalid := if !s.wvalid then !i.dataEmpty && s.active != 0 else !s.wlast
    bready := if !s.bready then i.enable else s.unconf != 0
    active := if s.addrEn i.awready && !s.wlast then (s.active + 1) % 16
      else if !s.addrEn i.awready && s.wlast then (s.active + 15) % 16 else s.active
    unconf := if s.addrEn i.awready && !s.respEn i.bvalid then (s.unconf + 1) % 16
      else if !s.addrEn i.awready && s.respEn i.bvalid then (s.unconf + 15) % 16 else s.unconf }

end HpWriter
end Model
