/- The core between two AXI streams (migen_src/integration_3_axi_stream.py), with its register file and its two resets. -/
import Verif.Model.AxiStream
import Verif.Model.Config

set_option autoImplicit false

namespace Model

/-- `Integration3AxiStream` (integration_3_axi_stream.py:44-71): `Integration3` without AXI-lite, hence with the register
file (integration_1.py:56-57, 88-95); the wrapper has no registers of its own. -/
structure Stream64 where
  core : Int3
  regs : RegFile

namespace Stream64

/-- Power-up. -/
def init (c : CoreCfg) : Stream64 := { core := .init c, regs := .init }

/-- One clock edge. The two clock domains have the same clock and separate reset inputs: `rst` resets `sync`, in which is
everything but the register file (register_file.py:53, domain `full`), `fullRst` resets that. Memories and read port
registers are not reset. -/
def step (c : CoreCfg) (s : Stream64) (rst fullRst : Bool) (sData : Nat) (sValid mReady : Bool) : Stream64 :=
  let cfg := c.withRegs s.regs.width s.regs.height c.int1.mem
  let i := stream64In sData sValid mReady
  let n := s.core.step cfg i.pixels i.valid i.busy
  { core := if rst then .reset cfg n.int2.kept else n
    regs := if fullRst then .init else s.regs.step }

/-- `s_tready` (integration_3_axi_stream.py:66). -/
def sReady (s : Stream64) : Bool := !s.core.nready

/-- `m_tvalid` (integration_3_axi_stream.py:57). -/
def mValid (s : Stream64) : Bool := s.core.valid

/-- `m_tlast` (integration_3_axi_stream.py:55). -/
def mLast (s : Stream64) : Bool := s.core.endd

/-- `m_tdata` (integration_3_axi_stream.py:54). -/
def mData (s : Stream64) : Nat := s.core.data

end Stream64
end Model
