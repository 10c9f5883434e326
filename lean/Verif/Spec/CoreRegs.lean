/- Specification of the register map of the core, as documented in migen_src/core_axi_lite.py:24-41. -/
import Verif.Spec.Bus

set_option autoImplicit false

namespace Spec

/-- The registers a bus master sees: height in the low and width in the high half of `hw`, the
24-bit cycle budget, and the Huffman table. -/
structure CoreRegs where
  hw : Nat
  allowed : Nat
  table : Nat → Nat

/-- Byte address in the table window (bit 12, word index below twice the number of entries), in the
height/width window (bit 13), in the debug window (bit 14). Words are 4 bytes. -/
def inTable (bd a : Nat) : Bool := a.testBit 12 && decide (a / 4 % 64 < 2 * (bd + 1))
def inHw (a : Nat) : Bool := a.testBit 13
def inDebug (a : Nat) : Bool := a.testBit 14

/-- What the table write does to a `bd+21`-bit entry `e` (word 0: low 32 bits, word 1: the rest). The
low word is stored as one would expect but clears the high word; a write of the high word stores
zero bytes instead of the data and clears the low word. -/
def tableWrite (bd e word data strb : Nat) : Nat :=
  if word = 0 then strobed (e % 2 ^ 32) data strb % 2 ^ (bd + 21)
  else 2 ^ 32 * strobed (e / 2 ^ 32) 0 strb % 2 ^ (bd + 21)

/-- The register map. `debug`: the debug module is configured; its eight registers are the live inputs. -/
def coreMap (bd : Nat) (debug : Bool) : RegMap CoreRegs (Nat → Nat) where
  read g live a :=
    if inTable bd a then
      (some (if a / 4 % 2 = 0 then g.table (a / 8 % 32) % 2 ^ 32 else g.table (a / 8 % 32) / 2 ^ 32), 0)
    else if inHw a then (some (if a / 4 % 2 = 0 then g.hw else g.allowed), 0)
    else if debug && inDebug a then (some (live (a / 4 % 8)), 0)
    else (none, 3)
  write g a d s :=
    if inTable bd a then
      ({ g with table := fun k =>
          if k = a / 8 % 32 then tableWrite bd (g.table k) (a / 4 % 2) d s else g.table k }, 0)
    else if inHw a then
      if a / 4 % 2 = 0 then ({ g with hw := strobed g.hw d s }, 0)
      else ({ g with allowed := strobed g.allowed d s % 2 ^ 24 }, 0)
    else if debug && inDebug a then (g, 2)
    else (g, 3)

end Spec
