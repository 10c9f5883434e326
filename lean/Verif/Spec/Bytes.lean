/- Specification: bytes, byte stuffing. -/
import Verif.Spec.Words

set_option autoImplicit false

namespace Spec

/-- The low `k` bytes of `n`, most significant first. -/
def bytesOf : Nat → Nat → List Nat
  | 0, _ => []
  | k + 1, n => n / 256 ^ k % 256 :: bytesOf k n

/-- Bytes of a list of 16-bit words, each most significant byte first. -/
def wordBytes (ws : List (Nat × Bool)) : List Nat := ws.flatMap fun w => bytesOf 2 w.1

/-- T.81 B.1.1.5 byte stuffing: a zero byte after every FF. -/
def stuff : List Nat → List Nat
  | [] => []
  | b :: l => if b = 255 then 255 :: 0 :: stuff l else b :: stuff l

/-- What a decoder does: after an FF drop the next byte. -/
def unstuff : List Nat → List Nat
  | [] => []
  | [b] => [b]
  | b :: z :: l => if b = 255 then 255 :: unstuff l else b :: unstuff (z :: l)

/-- Every FF is followed by 00: no marker inside the data. -/
def MarkerFree : List Nat → Prop
  | [] => True
  | b :: l => (b = 255 → ∃ t, l = 0 :: t) ∧ MarkerFree l

/-- Bits of bytes. -/
def byteBits (l : List Nat) : List Bool := l.flatMap (toBits 8)

end Spec
