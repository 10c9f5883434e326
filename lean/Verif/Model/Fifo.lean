/- Model of nMigen's `SyncFIFOBuffered` and `SyncFIFO`, read from the generated netlist
verilog_src/lj92_pipeline_fifo.v (modules `fifo` and `unbuffered`). -/

set_option autoImplicit false

namespace Model

/-- Registers of `SyncFIFO` with a registered read port
(verilog_src/lj92_pipeline_fifo.v:252-610, module `unbuffered`).  `dout` is the read port's
data register (`_0_`).  The counters are as wide as the depth needs and never leave
`0..depth`, so no truncation is written. -/
structure SyncFifo where
  storage : List Nat
  produce : Nat
  consume : Nat
  level : Nat
  dout : Nat
deriving DecidableEq, Repr

namespace SyncFifo

/-- State after reset with arbitrary memory contents `mem` and read register `d`:
`rst` clears `produce`, `consume` and `level` only (lj92_pipeline_fifo.v:510-600). -/
def reset (mem : List Nat) (d : Nat) : SyncFifo :=
  { storage := mem, produce := 0, consume := 0, level := 0, dout := d }

/-- Power-up: memory initialised with zeros (lj92_pipeline_fifo.v:360-490). -/
def init (depth : Nat) : SyncFifo := reset (List.replicate depth 0) 0

/-- `writable` (lj92_pipeline_fifo.v `$2`). -/
def writable (depth : Nat) (s : SyncFifo) : Bool := s.level != depth

/-- `readable` (lj92_pipeline_fifo.v `$4`). -/
def readable (s : SyncFifo) : Bool := s.level != 0

/-- One clock edge of the FIFO of the given depth.  `replace` is tied to 0.
Read port: `if re: dout <= storage[consume]` (old data on a simultaneous write). -/
def step (depth : Nat) (s : SyncFifo) (we : Bool) (din : Nat) (re : Bool) : SyncFifo :=
  let doWrite := s.writable depth && we
  let doRead := s.readable && re
  { storage := if doWrite then s.storage.set s.produce din else s.storage
    produce := if doWrite then (if s.produce = depth - 1 then 0 else s.produce + 1) else s.produce
    consume := if doRead then (if s.consume = depth - 1 then 0 else s.consume + 1) else s.consume
    level := if doRead && !doWrite then s.level - 1
             else if doWrite && !doRead then s.level + 1 else s.level
    dout := if re then s.storage.getD s.consume 0 else s.dout }

end SyncFifo

/-- Registers of `SyncFIFOBuffered` (lj92_pipeline_fifo.v:5-131, module `fifo`). -/
structure Fifo where
  inner : SyncFifo
  readable : Bool
deriving DecidableEq, Repr

namespace Fifo

/-- Reset with arbitrary memory contents. -/
def reset (mem : List Nat) (d : Nat) : Fifo := { inner := .reset mem d, readable := false }

/-- Power-up.  The inner FIFO has one entry less (nmigen/lib/fifo.py, netlist depth 127 of 128). -/
def init (depth : Nat) : Fifo := reset (List.replicate (depth - 1) 0) 0

/-- `dout` is the inner FIFO's read register (lj92_pipeline_fifo.v:99-102). -/
def dout (s : Fifo) : Nat := s.inner.dout

/-- `writable` (lj92_pipeline_fifo.v:90-93). -/
def writable (depth : Nat) (s : Fifo) : Bool := s.inner.writable (depth - 1)

/-- `level` (lj92_pipeline_fifo.v `$7`). -/
def level (s : Fifo) : Nat := s.inner.level + s.readable.toNat

/-- `unbuffered_re` (lj92_pipeline_fifo.v `$5`). -/
def innerRe (s : Fifo) (re : Bool) : Bool := s.inner.readable && (!s.readable || re)

/-- One clock edge (lj92_pipeline_fifo.v:103-120). -/
def step (depth : Nat) (s : Fifo) (we : Bool) (din : Nat) (re : Bool) : Fifo :=
  let ire := s.innerRe re
  { inner := s.inner.step (depth - 1) we din ire
    readable := if ire then true else if re then false else s.readable }

end Fifo
end Model
