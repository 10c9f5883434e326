/-
Bit strings.  Part of the specification: a bit string is a `List Bool`, most
significant bit first.
-/

set_option autoImplicit false

namespace Spec

/-- The `n` low bits of `v`, most significant first. -/
def toBits : Nat → Nat → List Bool
  | 0, _ => []
  | n + 1, v => v.testBit n :: toBits n v

/-- The number whose binary representation (MSB first) is the list. -/
def ofBits (l : List Bool) : Nat := l.foldl (fun a b => 2 * a + b.toNat) 0

end Spec
