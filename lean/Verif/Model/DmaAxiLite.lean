/- Model of migen_src/dma_axi_lite.py: the AXI-lite slave with the DMA registers. -/
import Verif.Model.CoreAxiLite

set_option autoImplicit false

namespace Model

/-- FSM states (dma_axi_lite.py:207-276). -/
inductive DmaFsm | idle | rdAddr | rdData | wrAddr | wrData | wrResp
deriving DecidableEq, Repr

/-- Registers of `DMAAxiLite` (dma_axi_lite.py:58-62, 110-123). -/
structure DmaLite where
  fsm : DmaFsm
  addr : Nat
  arready : Bool
  rvalid : Bool
  awready : Bool
  wready : Bool
  bvalid : Bool
  rdata : Nat
  rresp : Nat
  bresp : Nat
  readAddr : Nat
  writeAddr : Nat
  start : Nat
deriving DecidableEq, Repr

namespace DmaLite

/-- Reset values. -/
def init : DmaLite :=
  { fsm := .idle, addr := 0, arready := false, rvalid := false, awready := false, wready := false, bvalid := false,
    rdata := 0, rresp := 0, bresp := 0, readAddr := 0, writeAddr := 0, start := 0 }

/-- Bus outputs (dma_axi_lite.py:278-296). -/
def out (s : DmaLite) : LiteOut :=
  { arready := s.arready, rvalid := s.rvalid, rdata := s.rdata, rresp := s.rresp, awready := s.awready,
    wready := s.wready, bvalid := s.bvalid, bresp := s.bresp }

/-- `basic_enable`, `basic_index` (dma_axi_lite.py:133-140). -/
def enable (s : DmaLite) : Bool := s.addr.testBit 10
def index (s : DmaLite) : Nat := s.addr % 16

/-- `read_basic` or decode error (dma_axi_lite.py:142-169, 231-242). `ins k` is the input `in{k+1}`. -/
def readData (s r : DmaLite) (ins : Nat → Nat) : DmaLite :=
  if s.enable then
    let r := { r with rresp := 0 }
    match s.index with
    | 0 => { r with rdata := s.readAddr }
    | 1 => { r with rdata := s.writeAddr }
    | 2 => { r with rdata := s.start }
    | n + 3 => if n < 9 then { r with rdata := ins n } else r
  else { r with rresp := 3 }

/-- `write_to_basic` or decode error (dma_axi_lite.py:171-201, 264-268). The strobed bytes of the three
registers are replaced; any strobe on an input register gives the error. -/
def writeData (s r : DmaLite) (i : LiteIn) : DmaLite :=
  if s.enable then
    let r := { r with bresp := 0 }
    match s.index with
    | 0 => { r with readAddr := CoreLite.putBytes 4 s.readAddr i.wdata i.wstrb }
    | 1 => { r with writeAddr := CoreLite.putBytes 4 s.writeAddr i.wdata i.wstrb }
    | 2 => { r with start := CoreLite.putBytes 4 s.start i.wdata i.wstrb }
    | n + 3 =>
      if n < 9 && (i.wstrb.testBit 0 || i.wstrb.testBit 1 || i.wstrb.testBit 2 || i.wstrb.testBit 3) then { r with bresp := 2 } else r
  else { r with bresp := 3 }

/-- One clock edge (dma_axi_lite.py:207-276). -/
def step (s : DmaLite) (i : LiteIn) (ins : Nat → Nat) : DmaLite :=
  match s.fsm with
  | .idle =>
    let r := { s with rvalid := false, bvalid := false }
    if i.arvalid then { r with fsm := .rdAddr } else if i.awvalid then { r with fsm := .wrAddr } else r
  | .rdAddr => { s with addr := i.araddr / 4, arready := true, fsm := .rdData }
  | .rdData =>
    let r := s.readData { s with arready := false } ins
    if i.rready then { r with rvalid := true, fsm := .idle } else r
  | .wrAddr => { s with addr := i.awaddr / 4, awready := true, fsm := .wrData }
  | .wrData =>
    let r := { s with awready := false, wready := true }
    if i.wvalid then { s.writeData r i with fsm := .wrResp } else r
  | .wrResp =>
    let r := { s with wready := false }
    if i.bready then { r with bvalid := true, fsm := .idle } else r

end DmaLite
end Model
