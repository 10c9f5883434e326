/- Words transferred over a valid/ready interface with an end flag. -/
import Verif.Spec.Bits

set_option autoImplicit false

namespace Spec

/-- The bits of a list of `w`-bit words with end flags, MSB first, in order. -/
def wordBits (w : Nat) (ws : List (Nat × Bool)) : List Bool := ws.flatMap fun x => toBits w x.1

/-- The words before the first end-flagged one. -/
def beforeEnd (ws : List (Nat × Bool)) : List (Nat × Bool) := ws.takeWhile fun x => !x.2

/-- The words up to and including the first end-flagged one. -/
def upToEnd (ws : List (Nat × Bool)) : List (Nat × Bool) :=
  beforeEnd ws ++ (ws.dropWhile fun x => !x.2).take 1

end Spec
