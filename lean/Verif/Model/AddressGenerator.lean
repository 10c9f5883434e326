/- Model of migen_src/address_generator.py. -/

set_option autoImplicit false

namespace Model

/-- Registers of `AddressGenerator` (address_generator.py:35-37, 50): `loop` is the FSM state LOOP. -/
structure AddrGen where
  addr : Nat
  valid : Bool
  loop : Bool
deriving DecidableEq, Repr

/-- Inputs of one cycle (address_generator.py:37-39). -/
structure AddrIn where
  start : Nat
  latch : Bool
deriving DecidableEq, Repr

namespace AddrGen

/-- Reset values. -/
def init : AddrGen := ⟨0, false, false⟩

/-- One clock edge (address_generator.py:50-64); `shift` is the constructor argument. -/
def step (shift : Nat) (s : AddrGen) (i : AddrIn) : AddrGen :=
  if s.loop then
    if i.latch then { s with addr := (s.addr + shift) % 2 ^ 32 } else s
  else if i.latch then ⟨(s.addr + shift) % 2 ^ 32, true, true⟩
  else ⟨i.start % 2 ^ 32, true, false⟩

end AddrGen
end Model
