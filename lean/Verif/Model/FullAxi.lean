/- Model of migen_src/beta_integration_fullaxi.py: memory reader, FIFO, unpacker, beta core, packer, FIFO, memory
writer, and the DMA registers. -/
import Verif.Model.Beta
import Verif.Model.B64B32
import Verif.Model.B16B64
import Verif.Model.AxiHp
import Verif.Model.AddressGenerator
import Verif.Model.DmaAxiLite

set_option autoImplicit false

namespace Model

/-- The AXI masters' and slaves' signals in one cycle, as seen by the core. `rid` and `bid` are
not used by the code and left out; `rresp` and `bresp` only reach the status word. -/
structure FullIn where
  lite : LiteIn
  arready : Bool
  rvalid : Bool
  rlast : Bool
  rdata : Nat
  awready : Bool
  wready : Bool
  bvalid : Bool
  rresp : Nat
  bresp : Nat
deriving DecidableEq, Repr

/-- State of `BetaIntegrationFullAxi` (beta_integration_fullaxi.py:19-33, 66-67). -/
structure FullAxi where
  rd : HpReader
  rfifo : SyncFifo
  unpack : Unpack
  cam : Cam
  pack : Pack64
  wfifo : SyncFifo
  wr : HpWriter
  agr : AddrGen
  agw : AddrGen
  cntR : Nat
  cntW : Nat
  dma : DmaLite
deriving DecidableEq, Repr

namespace FullAxi

/-- Power-up. -/
def init (c : CoreCfg) : FullAxi :=
  { rd := .init, rfifo := HpFifo.init, unpack := .init, cam := .init c, pack := .init, wfifo := HpFifo.init, wr := .init,
    agr := .init, agw := .init, cntR := 0, cntW := 0, dma := .init }

/-- `enable` of reader and writer (beta_integration_fullaxi.py:119, 169). -/
def enable (s : FullAxi) : Bool := s.dma.start == 0xFFFFFFFF

/-- `read_end`, `write_end` (beta_integration_fullaxi.py:77-87). -/
def readEnd (s : FullAxi) (i : FullIn) : Bool := s.agr.valid && s.rd.addrEn i.arready && s.cntR == 196608
def writeEnd (s : FullAxi) (i : FullIn) : Bool := s.agw.valid && s.wr.addrEn i.awready && s.cntW == 131072

/-- Inputs of the reader (beta_integration_fullaxi.py:118-125). -/
def rdIn (s : FullAxi) (i : FullIn) : HpReadIn :=
  { enable := s.enable, addrEmpty := !s.agr.valid || s.readEnd i, arready := i.arready, rvalid := i.rvalid, rlast := i.rlast,
    rdata := i.rdata, dataFull := !HpFifo.writable16 s.rfifo }

/-- Inputs of the core (beta_integration_fullaxi.py:143-149). -/
def camIn (s : FullAxi) : CamIn :=
  { pixels := [slice s.unpack.data 0 12, slice s.unpack.data 12 24], valid := s.unpack.valid, busy := s.pack.oBusy }

/-- Outputs of the core. -/
def camOut (s : FullAxi) : MarkOut := s.cam.out s.pack.oBusy

/-- Inputs of the writer (beta_integration_fullaxi.py:168-177). -/
def wrIn (s : FullAxi) (i : FullIn) : HpWriteIn :=
  { enable := s.enable, addrEmpty := !s.agw.valid || s.writeEnd i, awready := i.awready, wready := i.wready, bvalid := i.bvalid,
    dataEmpty := !HpFifo.readable16 s.wfifo }

/-- The status bits, register `in1` (beta_integration_fullaxi.py:92; axihp_reader.py:123, 138; axihp_writer.py:176, 198),
from bit 0 on: the packer's `end_out` and `valid_out`, the write FIFO's, the writer's `data_enable`, `read_end`, `write_end`,
both `inactive`, both errors, the number of bursts in flight of writer and reader, the unconfirmed write bursts. -/
def status (s : FullAxi) (i : FullIn) : Nat :=
  s.pack.endOut.toNat + 2 * s.pack.valid.toNat + 4 * (HpFifo.endd s.wfifo).toNat + 8 * s.wfifo.readable.toNat +
  16 * (s.wr.dataEn i.wready).toNat + 32 * (s.readEnd i).toNat + 64 * (s.writeEnd i).toNat +
  128 * (s.rd.active == 0).toNat + 256 * (s.wr.active == 0 && s.wr.unconf == 0).toNat +
  512 * (s.wr.respEn i.bvalid && i.bresp != 0).toNat + 1024 * (s.rd.dataEn i.rvalid && i.rresp != 0).toNat +
  2048 * s.wr.active + 32768 * s.rd.active + 524288 * s.wr.unconf

/-- The registers `in1` to `in9` (beta_integration_fullaxi.py:91-101). -/
def regs (s : FullAxi) (i : FullIn) (k : Nat) : Nat :=
  [s.status i, s.agr.addr, s.agw.addr, s.cntR, s.cntW, s.camOut.data, s.pack.data % 2 ^ 32, s.pack.data / 2 ^ 32,
   s.unpack.data].getD k 0

/-- One clock edge without reset (beta_integration_fullaxi.py:66-177). -/
def run1 (c : CoreCfg) (allowed : Nat) (s : FullAxi) (i : FullIn) : FullAxi :=
  { rd := s.rd.step (s.rdIn i)
    rfifo := HpFifo.step s.rfifo (s.rd.dataEn i.rvalid) i.rdata false (!s.unpack.oBusy)
    unpack := s.unpack.step (HpFifo.data s.rfifo) s.rfifo.readable s.cam.nready
    cam := s.cam.betaStep c allowed s.camIn
    pack := s.pack.step s.camOut.data s.camOut.valid s.camOut.endd (!s.wfifo.writable 32)
    wfifo := HpFifo.step s.wfifo s.pack.valid s.pack.data s.pack.endOut (s.wr.dataEn i.wready)
    wr := s.wr.step (s.wrIn i)
    agr := s.agr.step 0x80 ⟨s.dma.readAddr, s.rd.addrEn i.arready⟩
    agw := s.agw.step 0x80 ⟨s.dma.writeAddr, s.wr.addrEn i.awready⟩
    cntR := if s.agr.valid && s.rd.addrEn i.arready && s.cntR != 196608 then (s.cntR + 1) % 2 ^ 32 else s.cntR
    cntW := if s.agw.valid && s.wr.addrEn i.awready && s.cntW != 131072 then (s.cntW + 1) % 2 ^ 32 else s.cntW
    dma := s.dma.step i.lite (s.regs i) }

/-- Reset of the unpacker: registers and FIFO counters cleared; FIFO memories and the registers `din64` and `din32`, which
have no reset, kept (b64_b32.py:44-68; verilog_src/beta_integration_fullaxi.v:2980-2997, 3017-3031). -/
def _root_.Model.Unpack.cleared (u : Unpack) : Unpack :=
  { Unpack.init with f64 := .reset u.f64.storage u.f64.dout, f32 := .reset u.f32.storage u.f32.dout,
                     din64 := u.din64, din32 := u.din32 }

/-- The state after reset: every register of the clock domain `sync` — the whole design is in it — has its reset
value; the memories of the FIFOs keep what the clock edge wrote (`t` is the state without reset; all FIFO
counters are cleared, verilog_src/beta_integration_fullaxi.v). -/
def clear (t : FullAxi) : FullAxi :=
  { rd := .init, rfifo := .reset t.rfifo.storage t.rfifo.dout
    unpack := t.unpack.cleared
    cam := t.cam, pack := .init, wfifo := .reset t.wfifo.storage t.wfifo.dout, wr := .init, agr := .init, agw := .init
    cntR := 0, cntW := 0, dma := .init }

/-- One clock edge: while the core's `reset_out` is high everything is reset (beta_integration.py:67-70: the reset
drives the clock domain `sync` of the whole design; the core resets itself in `Cam.betaStep`). -/
def step (c : CoreCfg) (allowed : Nat) (s : FullAxi) (i : FullIn) : FullAxi :=
  if s.cam.resetOut then clear (s.run1 c allowed i) else s.run1 c allowed i

end FullAxi
end Model
