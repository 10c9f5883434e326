/- `Integration3`, `Integration2` and `Integration1` on their own, with all their ports (migen_src/integration_3.py,
integration_2.py, integration_1.py). -/
import Verif.Model.Config
import Verif.Model.ForceEnd

set_option autoImplicit false

namespace Model

/-- `Integration3` (integration_3.py:19-81) without AXI-lite: the pipeline, the register file that gives it the frame size
and the budget (integration_1.py:56-57, 88-95), and the forced-end counter, whose output is a port of the core
(integration_3.py:41, integration_1.py:97-100). -/
structure Core3 where
  core : Int3
  regs : RegFile
  fend : ForceEnd

namespace Core3

/-- Power-up. -/
def init (c : CoreCfg) : Core3 := { core := .init c, regs := .init, fend := .init }

/-- One clock edge: `rst` resets `sync`, in which is everything but the register file (register_file.py:53), `fullRst`
resets that. The counter counts from the first pixels that are taken (integration_2.py:78-80, integration_1.py:98). -/
def step (c : CoreCfg) (s : Core3) (rst fullRst : Bool) (pixels : List Nat) (valid busy : Bool) : Core3 :=
  let cfg := c.withRegs s.regs.width s.regs.height c.int1.mem
  let n := s.core.step cfg pixels valid busy
  { core := if rst then .reset cfg n.int2.kept else n
    regs := if fullRst then .init else s.regs.step
    fend := if rst then .init else s.fend.step s.regs.allowed (valid && !s.core.nready) }

end Core3

/-- `Integration2` on its own (integration_2.py:11-123) without AXI-lite: the pipeline with its two FIFOs and the converter
between them, its register file and its forced-end counter. -/
structure Core2 where
  core : Int2
  regs : RegFile
  fend : ForceEnd

namespace Core2

/-- Power-up and reset, with `m` in the memories and the registers of their read ports. -/
def reset (c : CoreCfg) (m : Kept) (r : RegFile) : Core2 := { core := .reset c m, regs := r, fend := .init }

/-- One clock edge: `rst` resets `sync`, `fullRst` the register file; `latch` is `latch_output` (integration_2.py:115). -/
def step (c : CoreCfg) (s : Core2) (rst fullRst : Bool) (pixels : List Nat) (valid latch : Bool) : Core2 :=
  let cfg := c.withRegs s.regs.width s.regs.height c.int1.mem
  let n := s.core.step cfg pixels valid latch
  { core := if rst then .reset cfg n.kept else n
    regs := if fullRst then .init else s.regs.step
    fend := if rst then .init else s.fend.step s.regs.allowed (valid && !s.core.nready) }

end Core2

/-- `Integration1` on its own with AXI-lite (integration_1.py:12-166): the encoding pipeline, the slave that gives it the
frame size, the budget and the table (integration_1.py:51-55, 80-87, 133-141), and the forced-end counter. -/
structure Core1 where
  int1 : Int1
  lite : CoreLite
  fend : ForceEnd

namespace Core1

/-- Power-up; `rp` is in the registers of the read ports of the table memory, `table` in the memory (encode.py:195). -/
def init (c : Int1Cfg) (rp : List Nat) (table : Nat → Nat) : Core1 := { int1 := .reset c rp, lite := .init table, fend := .init }

/-- What the pipeline works with in this cycle (integration_1.py:80-87, 133-141); the read ports of the table memory are
transparent. -/
def cfg (c : Int1Cfg) (l : CoreLite) : Int1Cfg :=
  { c with W := l.width, H := l.height, mem := (List.range (c.bd + 1)).map l.stepMem.mem }

/-- A clock edge of the slave with the resets of both its domains: `fullRst` clears all its registers but the FSM
(core_axi_lite.py:212-395), not the memory and the address latch of its read port. -/
def stepLite (bd : Nat) (l : CoreLite) (rst fullRst : Bool) (bus : LiteIn) : CoreLite :=
  let r := l.step bd false rst bus (fun _ => 0)
  if fullRst then { CoreLite.init l.stepMem.mem with fsm := r.fsm, rpLatch := l.rpAddr } else r

/-- One clock edge: `rst` resets `sync`, `fullRst` the domain `full`, in which is only the slave. There is no back
pressure: the counter sees every valid input (integration_1.py:98). -/
def step (c : Int1Cfg) (s : Core1) (rst fullRst : Bool) (pixels : List Nat) (valid : Bool) (bus : LiteIn) : Core1 :=
  let n := s.int1.step (cfg c s.lite) pixels valid
  { int1 := if rst then .reset (cfg c s.lite) n.encode.rpData else n
    lite := stepLite c.bd s.lite rst fullRst bus
    fend := if rst then .init else s.fend.step s.lite.allowed valid }

end Core1
end Model
