/- A receiver of the 40-bit stream that finds the start of a frame by itself. -/
import Verif.Spec.Receiver40

set_option autoImplicit false

namespace Spec

/-- Everything before the first three consecutive words FFFFFFFFFF is dropped: a frame starts with eight words FFFF, that is
three such words and one byte. -/
def sync40 : List Nat → List Nat
  | x :: y :: z :: r => if x = 0xFFFFFFFFFF ∧ y = 0xFFFFFFFFFF ∧ z = 0xFFFFFFFFFF then x :: y :: z :: r else sync40 (y :: z :: r)
  | _ => []

end Spec
