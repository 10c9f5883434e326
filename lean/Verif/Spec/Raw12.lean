/- Specification: raw12 files and byte memories. -/
import Verif.Spec.Bytes

set_option autoImplicit false

namespace Spec

/-- Bit number `t` of a file, most significant bit of each byte first. -/
def fileBit (file : Nat → Nat) (t : Nat) : Bool := (file (t / 8)).testBit (7 - t % 8)

/-- raw12: pixel `k` is the `k`-th group of 12 bits of the file. -/
def raw12Pixel (file : Nat → Nat) (k : Nat) : Nat := ofBits ((List.range 12).map fun j => fileBit file (12 * k + j))

/-- A memory (byte address to byte) holds 16-bit words, least significant byte first, from address 0 on: what a DMA engine
leaves when it stores a stream of 16-bit words. -/
def Holds16 (mem : Nat → Nat) (ws : List Nat) : Prop :=
  ∀ k, k < ws.length → mem (2 * k) = ws.getD k 0 % 256 ∧ mem (2 * k + 1) = ws.getD k 0 / 256 % 256

/-- A file holds these bytes. -/
def HoldsFile (file : Nat → Nat) (bytes : List Nat) : Prop := ∀ k, k < bytes.length → file k = bytes.getD k 0

end Spec
