/- The micro core with AXI-lite under the external reset, and between two AXI streams
(migen_src/micro_integration_axistream.py). -/
import Verif.Model.Config

set_option autoImplicit false

namespace Model

/-- `CoreAxiLite` after a clock edge with the external reset (clk_domains.py:4): all registers are reset; the memory and the
latch of its read port are clocked as usual. -/
def CoreLite.clear (s : CoreLite) : CoreLite := { CoreLite.init s.stepMem.mem with rpLatch := s.rpAddr }

/-- One clock edge of the micro core with the external reset of the domain `full`: it also resets `sync`
(micro_integration.py:66-69); memories and read port registers are clocked as usual. -/
def LiteCam.microFull (c : CoreCfg) (s : LiteCam) (full : Bool) (i : LiteCamIn) : LiteCam :=
  if full then
    { cam := .reset c (s.cam.microRun (cfg c s.lite) s.lite.allowed i.cam).core.int2.kept, lite := s.lite.clear }
  else s.microStep c i

end Model
