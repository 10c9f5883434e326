/- The beta and the micro core with the source of its frame size, cycle budget and Huffman table: the AXI-lite slave
(`support_axi_lite` set in the configuration) or the register file. -/
import Verif.Model.Beta
import Verif.Model.CoreAxiLite

set_option autoImplicit false

namespace Model

/-- The configuration in force in one cycle (integration_1.py:80-95): frame size and table memory replaced. -/
def CoreCfg.withRegs (c : CoreCfg) (W H : Nat) (mem : List Nat) : CoreCfg :=
  { c with int1 := { c.int1 with W := W, H := H, mem := mem } }

/-- A core with AXI-lite (integration_1.py:51-55): `CoreAxiLite` with the table memory of `Encode`, and the rest. -/
structure LiteCam where
  cam : Cam
  lite : CoreLite

/-- Inputs of one cycle. -/
structure LiteCamIn where
  cam : CamIn
  bus : LiteIn

namespace LiteCam

/-- Power-up; `table` is the initial content of the table memory. -/
def init (c : CoreCfg) (table : Nat → Nat) : LiteCam := { cam := .init c, lite := .init table }

/-- What the pipeline is configured with in this cycle (integration_1.py:80-87, 133-141). The read ports of the table
memory are transparent: what they show in the next cycle is the memory after this cycle's write. -/
def cfg (c : CoreCfg) (l : CoreLite) : CoreCfg :=
  c.withRegs l.width l.height ((List.range (c.int1.bd + 1)).map l.stepMem.mem)

/-- One clock edge. The automatic reset strikes the `sync` domain (beta_integration.py:67-70), in which the slave has
only its FSM. The debug module is not configured (beta_integration.py:25). -/
def step (c : CoreCfg) (s : LiteCam) (i : LiteCamIn) : LiteCam :=
  { cam := s.cam.betaStep (cfg c s.lite) s.lite.allowed i.cam
    lite := s.lite.step c.int1.bd false s.cam.resetOut i.bus (fun _ => 0) }

/-- One clock edge of the micro core, whose configuration sets `support_axi_lite` and not `axi_lite_debug`
(micro_integration.py:15-27); the automatic reset as above (micro_integration.py:66-69). -/
def microStep (c : CoreCfg) (s : LiteCam) (i : LiteCamIn) : LiteCam :=
  { cam := s.cam.microStep (cfg c s.lite) s.lite.allowed i.cam
    lite := s.lite.step c.int1.bd false s.cam.resetOut i.bus (fun _ => 0) }

end LiteCam

/-- Registers of `RegisterFile` (register_file.py:49-51), all 0 at power-up. -/
structure RegFile where
  width : Nat
  height : Nat
  allowed : Nat

/-- Power-up. -/
def RegFile.init : RegFile := ⟨0, 0, 0⟩

/-- One clock edge (register_file.py:53-57); the `full` domain, not touched by the automatic reset. -/
def RegFile.step (_ : RegFile) : RegFile := ⟨4096, 3072, 6666000⟩

/-- The beta core with its register file (integration_1.py:56-57, 88-95). -/
structure RegCam where
  cam : Cam
  regs : RegFile

namespace RegCam

/-- Power-up. -/
def init (c : CoreCfg) : RegCam := { cam := .init c, regs := .init }

/-- One clock edge; the table memory has no write port (encode.py:199-201). -/
def step (c : CoreCfg) (s : RegCam) (i : CamIn) : RegCam :=
  { cam := s.cam.betaStep (c.withRegs s.regs.width s.regs.height c.int1.mem) s.regs.allowed i, regs := s.regs.step }

/-- One clock edge with the external reset of the domain `full`: it also resets `sync` (beta_integration.py:67-70);
memories and read port registers are clocked as usual. -/
def stepFull (c : CoreCfg) (s : RegCam) (full : Bool) (i : CamIn) : RegCam :=
  if full then
    { cam := .reset c (s.cam.betaRun (c.withRegs s.regs.width s.regs.height c.int1.mem) s.regs.allowed i).core.int2.kept, regs := .init }
  else s.step c i

end RegCam
end Model
