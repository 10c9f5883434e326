/- Specification: a receiver of the 40-bit stream. -/
import Verif.Spec.Bytes

set_option autoImplicit false

namespace Spec

/-- Without the bytes FF at the end. -/
def stripFF (l : List Nat) : List Nat := (l.reverse.dropWhile (· == 0xFF)).reverse

/-- Skip the words FFFFFFFFFF at the start; of the rest take the bytes, most significant first, drop the first one (the sixteenth byte of
the start marker) and the bytes FF at the end. -/
def receive40 (ws : List Nat) : List Nat := stripFF (((ws.dropWhile (· == 0xFFFFFFFFFF)).flatMap (bytesOf 5)).drop 1)

end Spec
