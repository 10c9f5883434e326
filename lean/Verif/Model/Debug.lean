/- Model of migen_src/debug_module.py. -/

set_option autoImplicit false

namespace Model

/-- One clock edge of the eight counters (debug_module.py:50-52). -/
def debugStep (regs : Nat → Nat) (en : Nat → Bool) : Nat → Nat :=
  fun i => if en i then (regs i + 1) % 2 ^ 32 else regs i

end Model
