/- Model of migen_src/delayer.py. -/

set_option autoImplicit false

namespace Model

/-- Registers of `Delayer` (delayer.py:12, 18-19). -/
structure Delayer where
  timer : Nat
  started : Bool
  out : Bool
deriving DecidableEq, Repr

namespace Delayer

/-- Reset values; `w` is the width of the timer, `ceil(log2 n)` (delayer.py:12). -/
def init (w n : Nat) : Delayer := ⟨(n - 2) % 2 ^ w, false, false⟩

/-- One clock edge (delayer.py:23-30). The timer wraps: `0 - 1` becomes `2^w - 1`. -/
def step (w : Nat) (s : Delayer) (i : Bool) : Delayer :=
  { timer := if s.started then (s.timer + (2 ^ w - 1)) % 2 ^ w else s.timer
    started := i || s.started
    out := s.timer == 0 || s.out }

end Delayer
end Model
