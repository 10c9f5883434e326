/- Models of migen_src/beta_integration_fifo_axistream.py and migen_src/beta_integration_axistream.py: the beta core
between two AXI streams (and the small stream wrappers of the other cores). -/
import Verif.Model.Beta
import Verif.Model.B64B32_2

set_option autoImplicit false

namespace Model

/-- State of `BetaIntegrationFIFOAxiStream` (beta_integration_fifo_axistream.py:23-24). -/
structure FifoStream where
  unpack : Unpack2
  cam : Cam
deriving DecidableEq, Repr

namespace FifoStream

/-- Power-up. -/
def init (c : CoreCfg) : FifoStream := { unpack := .init, cam := .init c }

/-- `s_tready` (beta_integration_fifo_axistream.py:51). -/
def sReady (s : FifoStream) : Bool := !s.unpack.oBusy

/-- The core's inputs (beta_integration_fifo_axistream.py:45, 56-61). -/
def camIn (s : FifoStream) (mReady : Bool) : CamIn :=
  { pixels := [slice s.unpack.data 12 24, slice s.unpack.data 0 12], valid := s.unpack.valid, busy := !mReady }

/-- `m_tdata`, `m_tvalid`, `m_tlast` (beta_integration_fifo_axistream.py:42-47). -/
def out (s : FifoStream) (mReady : Bool) : MarkOut := s.cam.out (!mReady)

/-- One clock edge (beta_integration_fifo_axistream.py:41-61).  All registers of the unpacker are in the clock
domain `full`, which the core's automatic reset does not reset. -/
def step (c : CoreCfg) (allowed : Nat) (s : FifoStream) (sData : Nat) (sValid mReady : Bool) : FifoStream :=
  { unpack := s.unpack.step sData sValid s.cam.nready
    cam := s.cam.betaStep c allowed (s.camIn mReady) }

end FifoStream

/-- The core's inputs in `BetaIntegrationAxiStream` (beta_integration_axistream.py:45, 49-56): 32-bit words with two
pixels in bits 31..20 and 19..8; `s_tlast` is not used. -/
def streamIn (sData : Nat) (sValid mReady : Bool) : CamIn :=
  { pixels := [slice sData 20 32, slice sData 8 20], valid := sValid, busy := !mReady }

/-- The core's inputs in `Integration3AxiStream` (integration_3_axi_stream.py:53-69): 64-bit words with four pixels in
bits 0..47; `s_tlast` is not used. -/
def stream64In (sData : Nat) (sValid mReady : Bool) : CoreIn :=
  { pixels := [slice sData 0 12, slice sData 12 24, slice sData 24 36, slice sData 36 48], valid := sValid, busy := !mReady }

/-- The core's inputs in `MicroIntegrationAxiStream` (micro_integration_axistream.py:45, 50-55): one pixel in the low
twelve bits of a 32-bit word; `s_tlast` is not used. -/
def streamMicroIn (sData : Nat) (sValid mReady : Bool) : CamIn :=
  { pixels := [slice sData 0 12], valid := sValid, busy := !mReady }

end Model
