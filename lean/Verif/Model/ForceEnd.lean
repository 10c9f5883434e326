/- Models of migen_src/force_end.py and migen_src/auto_reset.py. -/

set_option autoImplicit false

namespace Model

/-- FSM states (force_end.py:53-65). -/
inductive FendFsm | idle | counting | fin
deriving DecidableEq, Repr

/-- Registers of `ForceEnd` (force_end.py:38-41, 51). -/
structure ForceEnd where
  fsm : FendFsm
  counter : Nat
  fend : Bool
deriving DecidableEq, Repr

namespace ForceEnd

/-- Reset values. -/
def init : ForceEnd := { fsm := .idle, counter := 0, fend := false }

/-- One clock edge (force_end.py:53-65); the counter has 25 bits, `allowed` 24 bits. -/
def step (s : ForceEnd) (allowed : Nat) (validIn : Bool) : ForceEnd :=
  match s.fsm with
  | .idle => if validIn then { s with fsm := .counting } else s
  | .counting =>
    { s with counter := (s.counter + 1) % 2 ^ 25, fsm := if s.counter = allowed then .fin else .counting }
  | .fin => { s with fend := true }

end ForceEnd

/-- Next value of `reset_out` outside reset (auto_reset.py:52-55). -/
def AutoReset.next (resetOut hs1 hs2 endIn : Bool) : Bool :=
  if hs1 && hs2 && endIn then true else resetOut

end Model
