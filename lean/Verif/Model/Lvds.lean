/- Model of migen_src/beta_integration_fifo_lvds.py: the beta core between a 64-bit stream and a 40-bit stream. -/
import Verif.Model.AxiStream
import Verif.Model.B16B40

set_option autoImplicit false

namespace Model

/-- State of `BetaIntegrationFIFOLVDS` (beta_integration_fifo_lvds.py:23-25). Unpacker and core are wired as in
`FifoStream` (beta_integration_fifo_lvds.py:58-71), the packer taking the place of the output stream. -/
structure Lvds where
  fs : FifoStream
  pack : Pack40
deriving DecidableEq, Repr

namespace Lvds

/-- Power-up. -/
def init (c : CoreCfg) : Lvds := { fs := .init c, pack := .init }

/-- The core's outputs; `busy_in` is the packer's `o_busy` (beta_integration_fifo_lvds.py:51-55). -/
def camOut (s : Lvds) : MarkOut := s.fs.out (!s.pack.oBusy)

/-- `m_tvalid`, `m_tdata` (beta_integration_fifo_lvds.py:45, 47). -/
def mValid (s : Lvds) : Bool := s.pack.valid
def mData (s : Lvds) : Nat := s.pack.data

/-- One clock edge (beta_integration_fifo_lvds.py:44-71). -/
def step (c : CoreCfg) (allowed : Nat) (s : Lvds) (sData : Nat) (sValid mReady : Bool) : Lvds :=
  { fs := s.fs.step c allowed sData sValid (!s.pack.oBusy)
    pack := s.pack.step s.camOut.data s.camOut.valid (!mReady) s.fs.cam.resetOut }

end Lvds
end Model
