/- Specification of the DMA register map, migen_src/dma_axi_lite.py:22-31. -/
import Verif.Spec.Bus

set_option autoImplicit false

namespace Spec

/-- The read/write registers: start address of reading and of writing, start command. -/
structure DmaRegs where
  readAddr : Nat
  writeAddr : Nat
  start : Nat
deriving DecidableEq, Repr

/-- The registers are selected by bit 12 of the byte address; the index is the word number modulo 16. -/
def inDma (a : Nat) : Bool := a.testBit 12

/-- The register map. The live inputs are the nine status words (indices 3 to 11). Indices 12 to 15 do
not exist but answer OKAY. Writing a status word with any strobe is a slave error. -/
def dmaMap : RegMap DmaRegs (Nat → Nat) where
  read g live a :=
    if inDma a then
      (match a / 4 % 16 with
        | 0 => some g.readAddr
        | 1 => some g.writeAddr
        | 2 => some g.start
        | n => if n < 12 then some (live (n - 3)) else none, 0)
    else (none, 3)
  write g a d s :=
    if inDma a then
      match a / 4 % 16 with
      | 0 => ({ g with readAddr := strobed g.readAddr d s }, 0)
      | 1 => ({ g with writeAddr := strobed g.writeAddr d s }, 0)
      | 2 => ({ g with start := strobed g.start d s }, 0)
      | n => (g, if n < 12 ∧ s % 16 ≠ 0 then 2 else 0)
    else (g, 3)

end Spec
