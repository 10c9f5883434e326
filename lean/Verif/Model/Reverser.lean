/- Model of migen_src/reverser.py. -/
import Verif.Model.B16B64

set_option autoImplicit false

namespace Model

/-- The bit loop (reverser.py:48-52): for `i` below `k`, bit `n-1-i` of the output is bit `i` of the input. -/
def revLoop (n x : Nat) : Nat → Nat
  | 0 => 0
  | k + 1 => setSlice (revLoop n x k) (n - 1 - k) (n - 1 - k + 1) (x / 2 ^ k)

/-- Combinational variant (reverser.py:52). -/
def revBits (n x : Nat) : Nat := revLoop n x n

/-- Synchronous variant (reverser.py:50): the output register after one cycle with input `x`; all `n`
bits are assigned in every cycle, so the old value does not matter. -/
def revStep (n : Nat) (_old x : Nat) : Nat := revBits n x

end Model
